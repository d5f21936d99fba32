import Verif.Props.Probing

/-!
# C50 Intersections of planar entities lie on both of them
-/

namespace Props
open Verif Frackit Lemmas

/-- Some point of the set is closer than `eps`. -/
def NearSet (R : V3 → Prop) (p : V3) (eps : ℝ) : Prop := ∃ q, R q ∧ Spec.dist p q < eps

/-- The boolean operations of the shape of `f` with the segment `s` are exact for the (convex) point set
`R`: no common point leaves the segment uncut, a single common point cuts it in two, otherwise the
common part is an edge. -/
inductive ExactCut (f : FaceGeom) (R : V3 → Prop) (s : Segment) (tol : ℝ) : Prop
  | disjoint (h : ∀ p, Spec.OnSegment s.source s.target p → ¬ R p) (he : f.commonEdges s tol = [])
      (hc : (f.cutVertices s tol).length = 2)
  | touching (c : V3) (h : ∀ p, (Spec.OnSegment s.source s.target p ∧ R p) ↔ p = c)
      (he : f.commonEdges s tol = []) (hl : (f.cutVertices s tol).length = 4)
      (hm : c ∈ f.cutVertices s tol)
      (hv : ∀ v ∈ f.cutVertices s tol, v = s.source ∨ v = s.target ∨ v = c)
  | crossing (a b : V3) (hab : a ≠ b)
      (h : ∀ p, (Spec.OnSegment s.source s.target p ∧ R p) ↔ Spec.OnSegment a b p)
      (he : f.commonEdges s tol = [[a, b]])

/-- `g` describes the common points of the line and the set. -/
inductive LineCut (l : Line) (R : V3 → Prop) : IsGeom → Prop
  | empty (h : ∀ p, Spec.OnLine l.supp l.dir p → ¬ R p) : LineCut l R .empty
  | point (c : V3) (h : ∀ p, (Spec.OnLine l.supp l.dir p ∧ R p) ↔ p = c) : LineCut l R (.point c)
  | segment (a b : V3) (hab : a ≠ b)
      (h : ∀ p, (Spec.OnLine l.supp l.dir p ∧ R p) ↔ Spec.OnSegment a b p) :
      LineCut l R (.segment ⟨a, b⟩)

theorem probing_onLine {c : V3} {l : Line} {L : ℝ} {p : V3}
    (h : Spec.OnSegment (probingSegment c l L).source (probingSegment c l L).target p) :
    Spec.OnLine l.supp l.dir p := by
  rw [Spec.onSegment_iff] at h
  obtain ⟨t, _, _, rfl⟩ := h
  rw [Spec.onLine_iff]
  simp only [probingSegment, Line.projection]
  refine ⟨l.dir.dot (c - l.supp) + L * 20.0 - t * (2 * (L * 20.0)), ?_⟩
  generalize L * 20.0 = k
  module

theorem isEqual_self {p : V3} {eps : ℝ} (he : 0 < eps) : pointIsEqual p p eps := by
  unfold pointIsEqual
  rw [sub_self]
  simp only [V3.sqLen, V3.zero_x, V3.zero_y, V3.zero_z]
  nlinarith [mul_pos he he]

theorem not_isEqual_of_far {p q : V3} {eps : ℝ} (he : 0 ≤ eps) (h : eps ≤ Spec.dist q p) :
    ¬ pointIsEqual p q eps := by
  unfold pointIsEqual
  rw [Spec.dist_eq_len] at h
  rw [not_lt, ← V3.len_mul_self]
  exact mul_self_le_mul_self he h

theorem intersectPlaneLine_inplane {K : Kernel} {pl : Plane} {l : Line} {eps : ℝ}
    (he : 0 < eps)
    (hin : ∀ p, Spec.OnLine l.supp l.dir p → Spec.OnPlane pl.supp pl.normal p) :
    intersectPlaneLine K pl l eps = .val (.line l) := by
  have h0 := (Spec.onPlane_iff _ _ _).1 (hin l.supp ((Spec.onLine_iff _ _ _).2 ⟨0, by module⟩))
  have h1 := (Spec.onPlane_iff _ _ _).1 (hin (l.supp + l.dir)
    ((Spec.onLine_iff _ _ _).2 ⟨1, by module⟩))
  rw [show l.supp + l.dir - pl.supp = (l.supp - pl.supp) + l.dir by module, V3.dot_add, h0, zero_add] at h1
  have hnorm : gpIsNormal l.dir pl.normal angular := by
    unfold gpIsNormal gpAngle
    rw [V3.dot_comm, h1, zero_div, Real.arccos_zero, sub_self, abs_zero]
    exact angular_pos.le
  unfold intersectPlaneLine
  rw [if_neg (not_not.2 hnorm)]
  have hproj : pl.projection l.supp - l.supp = 0 := by
    unfold Plane.projection
    rw [h0]; module
  simp only
  rw [hproj, if_neg]
  rw [V3.len_eq_zero.2 rfl]; linarith

/-- Intersection of a planar geometry with a line in its plane. -/
theorem planarLine_cut {K : Kernel} {f : FaceGeom} {R : V3 → Prop} {l : Line} {L ce eps : ℝ}
    (he : 0 < eps)
    (hin : ∀ p, Spec.OnLine l.supp l.dir p → Spec.OnPlane f.plane.supp f.plane.normal p)
    (hcov : ∀ p, Spec.OnLine l.supp l.dir p → R p → CoveredBy (probingSegment f.center l L) eps p)
    (hex : ExactCut f R (probingSegment f.center l L) (0.1 * eps)) :
    ∃ g, intersectPlanarLine K f l L ce eps = .val g ∧ LineCut l R g := by
  have hiff : ∀ p, (Spec.OnLine l.supp l.dir p ∧ R p) ↔
      (Spec.OnSegment (probingSegment f.center l L).source (probingSegment f.center l L).target p ∧ R p) :=
    fun p => ⟨fun h => ⟨(hcov p h.1 h.2).1, h.2⟩, fun h => ⟨probing_onLine h.1, h.2⟩⟩
  unfold intersectPlanarLine
  rw [intersectPlaneLine_inplane he hin, Outcome.val_bind]
  simp only
  rcases hex with ⟨h, hE, hc⟩ | ⟨c, h, hE, hl, hm, hv⟩ | ⟨a, b, hab, h, hE⟩
  · rw [hE]
    simp only
    rw [if_pos hc]
    exact ⟨_, rfl, .empty fun p hp hR => h p ((hiff p).1 ⟨hp, hR⟩).1 hR⟩
  · rw [hE]
    simp only
    rw [if_neg (by omega)]
    have hc := (h c).2 rfl
    have hcc := hcov c (probing_onLine hc.1) hc.2
    have hne : ¬ pointIsEqual c (probingSegment f.center l L).source eps ∧
        ¬ pointIsEqual c (probingSegment f.center l L).target eps :=
      ⟨not_isEqual_of_far he.le hcc.2.1, not_isEqual_of_far he.le hcc.2.2⟩
    split
    · rename_i p hp
      have h1 := List.find?_some hp
      have h2 := hv p (List.mem_of_find?_eq_some hp)
      simp only [decide_eq_true_eq] at h1
      have : p = c := by
        rcases h2 with rfl | rfl | h2
        · exact absurd (isEqual_self he) h1.1
        · exact absurd (isEqual_self he) h1.2
        · exact h2
      subst this
      exact ⟨_, rfl, .point p fun q => (hiff q).trans (h q)⟩
    · rename_i hp
      have := List.find?_eq_none.1 hp c hm
      simp only [decide_eq_true_eq] at this
      exact absurd hne this
  · rw [hE]
    exact ⟨_, rfl, .segment a b hab fun q => (hiff q).trans (h q)⟩

theorem near_of_has {s : Segment} {p : V3} {eps : ℝ} (he : 0 < eps) (h : Segment.has s p) :
    Segment.near s p eps := ⟨p, h, by rw [dist_self]; exact he⟩

theorem cut_collinear {l : Line} {R1 R2 : V3 → Prop} {a1 b1 a2 b2 : V3}
    (h1 : ∀ p, (Spec.OnLine l.supp l.dir p ∧ R1 p) ↔ Spec.OnSegment a1 b1 p)
    (h2 : ∀ p, (Spec.OnLine l.supp l.dir p ∧ R2 p) ↔ Spec.OnSegment a2 b2 p) :
    CollinearSegments ⟨a1, b1⟩ ⟨a2, b2⟩ := by
  have src : ∀ a b : V3, Spec.OnSegment a b a := fun a b =>
    (Spec.onSegment_iff _ _ _).2 ⟨0, le_rfl, zero_le_one, by module⟩
  have tgt : ∀ a b : V3, Spec.OnSegment a b b := fun a b =>
    (Spec.onSegment_iff _ _ _).2 ⟨1, zero_le_one, le_rfl, by module⟩
  exact ⟨l.supp, l.dir, ((h1 _).2 (src _ _)).1, ((h1 _).2 (tgt _ _)).1, ((h2 _).2 (src _ _)).1,
    ((h2 _).2 (tgt _ _)).1⟩

/-- The result for two collinear segments, whatever the geometry kernel does. -/
theorem segseg_cases (K : Kernel) {seg1 seg2 : Segment} {eps : ℝ} {g : IsGeom}
    (h1 : seg1.source ≠ seg1.target) (h2 : seg2.source ≠ seg2.target)
    (hc : CollinearSegments seg1 seg2) (he : 0 < eps)
    (h : intersectSegmentSegment K seg1 seg2 eps = .val g) :
    (∃ s, g = .segment s ∧ (∀ p, Segment.has seg1 p → Segment.has seg2 p → Segment.has s p) ∧
      ∀ p, Segment.has s p → Segment.near seg1 p eps ∧ Segment.near seg2 p eps) ∨
    ((∀ p, Segment.has seg1 p → ¬ Segment.near seg2 p eps) ∧ (g = .empty ∨
      ∃ p, g = .point p ∧ Segment.near seg1 p eps ∧ Segment.near seg2 p eps)) := by
  by_cases hnear : ∃ p, Segment.has seg1 p ∧ Segment.near seg2 p eps
  · obtain ⟨s, hs, hs1, hs2⟩ := C51_overlap_partial K seg1 seg2 eps h1 h2 hc he hnear
    rw [hs] at h
    left; exact ⟨s, (Outcome.val.inj h).symm, hs1, hs2⟩
  · push Not at hnear
    right
    refine ⟨hnear, ?_⟩
    have hpt : ∀ p, g = .point p → Segment.near seg1 p eps ∧ Segment.near seg2 p eps := by
      rintro p rfl
      exact C59_point_near_both K seg1 seg2 eps p h1 h2 he h
    obtain ⟨o, d, a1, b1, a2, b2, hd, rfl, rfl⟩ := hc.axis h1
    have n1 : a1 ≠ b1 := by rintro rfl; exact h1 rfl
    have n2 : a2 ≠ b2 := by rintro rfl; exact h2 rfl
    rcases intersect_axis K hd n1 n2 he with ⟨u, v, hr, ho⟩ | ⟨hr, ho⟩
    · exfalso
      have hm := ho.meets
      have hmm1 : min a1 b1 ≤ max a1 b1 := min_le_max
      have hmm2 : min a2 b2 ≤ max a2 b2 := min_le_max
      rcases lt_or_ge (max a2 b2) (max a1 b1) with hlt | hge
      · have hx : min a1 b1 ≤ max (max a2 b2) (min a1 b1) ∧ max (max a2 b2) (min a1 b1) ≤ max a1 b1 :=
          ⟨le_max_right _ _, max_le hlt.le hmm1⟩
        refine hnear (onAxis o d (max (max a2 b2) (min a1 b1))) ((onAxis_onSegment hd _ _ _).2 hx)
          ((onAxis_near hd _ _ _ _ he).2 ⟨?_, ?_⟩)
        · have := le_max_left (max a2 b2) (min a1 b1); linarith
        · rcases max_choice (max a2 b2) (min a1 b1) with hmax | hmax <;> rw [hmax]
          · linarith
          · linarith [hm.2]
      · refine hnear (onAxis o d (max a1 b1)) ((onAxis_onSegment hd _ _ _).2 ⟨hmm1, le_rfl⟩)
          ((onAxis_near hd _ _ _ _ he).2 ⟨by linarith [hm.1], by linarith⟩)
    · rw [hr] at h
      have hcase : (∃ p, g = .point p) ∨ g = .empty := by
        unfold fragmentIntersection at h
        simp only at h
        split_ifs at h
        · split at h
          · simp only [Outcome.val.injEq] at h; left; exact ⟨_, h.symm⟩
          · cases h
        · simp only [Outcome.val.injEq] at h; left; exact ⟨_, h.symm⟩
        · simp only [Outcome.val.injEq] at h; left; exact ⟨_, h.symm⟩
        · simp only [Outcome.val.injEq] at h; left; exact ⟨_, h.symm⟩
        · simp only [Outcome.val.injEq] at h; left; exact ⟨_, h.symm⟩
        · simp only [Outcome.val.injEq] at h; right; exact h.symm
      rcases hcase with ⟨p, hp⟩ | hg
      · right; exact ⟨p, hp, hpt p hp⟩
      · left; exact hg

/-- The two planar geometries with supporting planes that intersect in a line, and exact operations of
the geometry kernel for the point sets `R1` and `R2`. -/
structure ExactPair (K : Kernel) (f1 f2 : FaceGeom) (R1 R2 : V3 → Prop) (L eps : ℝ) (l : Line) :
    Prop where
  eps_pos : 0 < eps
  inside1 : ∀ p, R1 p → Spec.OnPlane f1.plane.supp f1.plane.normal p
  inside2 : ∀ p, R2 p → Spec.OnPlane f2.plane.supp f2.plane.normal p
  not_parallel : ¬ gpIsParallel f1.plane.normal f2.plane.normal angular
  kernel : K.planePlane f1.plane f2.plane eps = some (l.supp, l.dir)
  unit : Spec.IsUnit l.dir
  line : ∀ p, Spec.OnLine l.supp l.dir p ↔
    Spec.OnPlane f1.plane.supp f1.plane.normal p ∧ Spec.OnPlane f2.plane.supp f2.plane.normal p
  cover1 : ∀ p, Spec.OnLine l.supp l.dir p → R1 p → CoveredBy (probingSegment f1.center l L) eps p
  cover2 : ∀ p, Spec.OnLine l.supp l.dir p → R2 p → CoveredBy (probingSegment f2.center l L) eps p
  cut1 : ExactCut f1 R1 (probingSegment f1.center l L) (0.1 * eps)
  cut2 : ExactCut f2 R2 (probingSegment f2.center l L) (0.1 * eps)

/-- The result is on both geometries up to the tolerance. -/
def OnBoth (R1 R2 : V3 → Prop) (eps : ℝ) (g : IsGeom) : Prop :=
  g = .empty ∨ (∃ p, g = .point p ∧ NearSet R1 p eps ∧ NearSet R2 p eps) ∨
  ∃ s, g = .segment s ∧ ∀ p, Segment.has s p → NearSet R1 p eps ∧ NearSet R2 p eps

/-- All common points are part of the result. -/
def CoversCommon (R1 R2 : V3 → Prop) (g : IsGeom) : Prop :=
  ∀ p, R1 p → R2 p → g = .point p ∨ ∃ s, g = .segment s ∧ Segment.has s p

theorem nearSet_of_near {l : Line} {R : V3 → Prop} {s : Segment} {p : V3} {eps : ℝ}
    (h : ∀ p, (Spec.OnLine l.supp l.dir p ∧ R p) ↔ Spec.OnSegment s.source s.target p)
    (hn : Segment.near s p eps) : NearSet R p eps := by
  obtain ⟨q, hq, hd⟩ := hn
  exact ⟨q, ((h q).2 hq).2, hd⟩

theorem combine_spec {K : Kernel} {l : Line} {R1 R2 : V3 → Prop} {g1 g2 g : IsGeom} {eps : ℝ}
    (he : 0 < eps) (hin : ∀ p, R1 p → R2 p → Spec.OnLine l.supp l.dir p)
    (h1 : LineCut l R1 g1) (h2 : LineCut l R2 g2) (h : combineOnLine K g1 g2 eps = .val g) :
    OnBoth R1 R2 eps g ∧ (CoversCommon R1 R2 g ∨ ∃ c, g1 = .point c ∧ g2 = .point c) := by
  have self : ∀ {R : V3 → Prop} {p : V3}, R p → NearSet R p eps := fun {R p} hR =>
    ⟨p, hR, by rw [dist_self]; exact he⟩
  rcases h1 with h1 | ⟨c1, h1⟩ | ⟨a1, b1, n1, h1⟩
  · have hg : g = .empty := by
      rcases h2 with h2 | ⟨c2, h2⟩ | ⟨a2, b2, n2, h2⟩ <;>
      · simp only [combineOnLine, Outcome.val.injEq] at h; exact h.symm
    exact ⟨.inl hg, .inl fun p hp1 hp2 => absurd hp1 (h1 p (hin p hp1 hp2))⟩
  · rcases h2 with h2 | ⟨c2, h2⟩ | ⟨a2, b2, n2, h2⟩
    · simp only [combineOnLine, Outcome.val.injEq] at h
      exact ⟨.inl h.symm, .inl fun p hp1 hp2 => absurd hp2 (h2 p (hin p hp1 hp2))⟩
    · simp only [combineOnLine, Outcome.val.injEq] at h
      refine ⟨.inl h.symm, ?_⟩
      by_cases hcc : c1 = c2
      · right; exact ⟨c1, rfl, by rw [hcc]⟩
      · left
        intro p hp1 hp2
        have e1 := (h1 p).1 ⟨hin p hp1 hp2, hp1⟩
        have e2 := (h2 p).1 ⟨hin p hp1 hp2, hp2⟩
        exact absurd (e1.symm.trans e2) hcc
    · simp only [combineOnLine] at h
      have hc1 := (h1 c1).2 rfl
      by_cases hs : (⟨a2, b2⟩ : Segment).contains c1 eps
      · rw [if_pos hs] at h
        simp only [Outcome.val.injEq] at h
        have hnear := (C08_contains_iff_within_eps ⟨a2, b2⟩ c1 eps n2 he).1 hs
        refine ⟨.inr (.inl ⟨c1, h.symm, self hc1.2, nearSet_of_near (s := ⟨a2, b2⟩) h2 hnear⟩), .inl ?_⟩
        intro p hp1 hp2
        left
        rw [(h1 p).1 ⟨hin p hp1 hp2, hp1⟩, h]
      · rw [if_neg hs] at h
        simp only [Outcome.val.injEq] at h
        refine ⟨.inl h.symm, .inl ?_⟩
        intro p hp1 hp2
        exfalso
        apply hs
        rw [C08_contains_iff_within_eps ⟨a2, b2⟩ c1 eps n2 he]
        have e1 := (h1 p).1 ⟨hin p hp1 hp2, hp1⟩
        exact ⟨p, (h2 p).1 ⟨hin p hp1 hp2, hp2⟩, by rw [e1, dist_self]; exact he⟩
  · rcases h2 with h2 | ⟨c2, h2⟩ | ⟨a2, b2, n2, h2⟩
    · simp only [combineOnLine, Outcome.val.injEq] at h
      exact ⟨.inl h.symm, .inl fun p hp1 hp2 => absurd hp2 (h2 p (hin p hp1 hp2))⟩
    · simp only [combineOnLine] at h
      have hc2 := (h2 c2).2 rfl
      by_cases hs : (⟨a1, b1⟩ : Segment).contains c2 eps
      · rw [if_pos hs] at h
        simp only [Outcome.val.injEq] at h
        have hnear := (C08_contains_iff_within_eps ⟨a1, b1⟩ c2 eps n1 he).1 hs
        refine ⟨.inr (.inl ⟨c2, h.symm, nearSet_of_near (s := ⟨a1, b1⟩) h1 hnear, self hc2.2⟩), .inl ?_⟩
        intro p hp1 hp2
        left
        rw [(h2 p).1 ⟨hin p hp1 hp2, hp2⟩, h]
      · rw [if_neg hs] at h
        simp only [Outcome.val.injEq] at h
        refine ⟨.inl h.symm, .inl ?_⟩
        intro p hp1 hp2
        exfalso
        apply hs
        rw [C08_contains_iff_within_eps ⟨a1, b1⟩ c2 eps n1 he]
        have e2 := (h2 p).1 ⟨hin p hp1 hp2, hp2⟩
        exact ⟨p, (h1 p).1 ⟨hin p hp1 hp2, hp1⟩, by rw [e2, dist_self]; exact he⟩
    · simp only [combineOnLine] at h
      obtain ⟨r, hr, h⟩ := Outcome.bind_eq_val.1 h
      rcases segseg_cases K (seg1 := ⟨a1, b1⟩) (seg2 := ⟨a2, b2⟩) n1 n2 (cut_collinear h1 h2) he hr with
        ⟨s, rfl, hs1, hs2⟩ | ⟨hfar, rfl | ⟨p, rfl, hp1, hp2⟩⟩
      · simp only [Outcome.pure_eq, Outcome.val.injEq] at h
        refine ⟨.inr (.inr ⟨s, h.symm, ?_⟩), .inl ?_⟩
        · intro p hp
          exact ⟨nearSet_of_near (s := ⟨a1, b1⟩) h1 (hs2 p hp).1,
            nearSet_of_near (s := ⟨a2, b2⟩) h2 (hs2 p hp).2⟩
        · intro p hp1 hp2
          right
          exact ⟨s, h.symm, hs1 p ((h1 p).1 ⟨hin p hp1 hp2, hp1⟩) ((h2 p).1 ⟨hin p hp1 hp2, hp2⟩)⟩
      · simp only [Outcome.pure_eq, Outcome.val.injEq] at h
        refine ⟨.inl h.symm, .inl ?_⟩
        intro p hp1 hp2
        exact absurd (near_of_has (s := ⟨a2, b2⟩) he ((h2 p).1 ⟨hin p hp1 hp2, hp2⟩))
          (hfar p ((h1 p).1 ⟨hin p hp1 hp2, hp1⟩))
      · simp only [Outcome.pure_eq, Outcome.val.injEq] at h
        refine ⟨.inr (.inl ⟨p, h.symm, nearSet_of_near (s := ⟨a1, b1⟩) h1 hp1,
          nearSet_of_near (s := ⟨a2, b2⟩) h2 hp2⟩), .inl ?_⟩
        intro q hq1 hq2
        exact absurd (near_of_has (s := ⟨a2, b2⟩) he ((h2 q).1 ⟨hin q hq1 hq2, hq2⟩))
          (hfar q ((h1 q).1 ⟨hin q hq1 hq2, hq1⟩))

/-- If the geometries have common points at all, every point of the result is close to one of them. -/
def NearCommon (R1 R2 : V3 → Prop) (eps : ℝ) (g : IsGeom) : Prop :=
  (∃ q, R1 q ∧ R2 q) → ∀ p, (g = .point p ∨ ∃ s, g = .segment s ∧ Segment.has s p) →
    ∃ q, R1 q ∧ R2 q ∧ Spec.dist p q < eps

theorem dist_between {p a b z : V3} {eps : ℝ} (hz : Spec.OnSegment a b z) (ha : Spec.dist p a < eps)
    (hb : Spec.dist p b < eps) : Spec.dist p z < eps := by
  obtain ⟨t, h0, h1, rfl⟩ := (Spec.onSegment_iff _ _ _).1 hz
  rw [Spec.dist_eq_len] at ha hb ⊢
  have := V3.len_add_le ((1 - t) • (p - a)) (t • (p - b))
  rw [V3.len_smul, V3.len_smul, abs_of_nonneg (by linarith), abs_of_nonneg h0,
    show (1 - t) • (p - a) + t • (p - b) = p - (a + t • (b - a)) by module] at this
  rcases eq_or_lt_of_le h0 with h | h
  · subst h; linarith
  · nlinarith

theorem segment_convex {a b x y z : V3} (hx : Spec.OnSegment a b x) (hy : Spec.OnSegment a b y)
    (hz : Spec.OnSegment x y z) : Spec.OnSegment a b z := by
  rw [Spec.onSegment_iff] at *
  obtain ⟨t, t0, t1, rfl⟩ := hx
  obtain ⟨r, r0, r1, rfl⟩ := hy
  obtain ⟨k, k0, k1, rfl⟩ := hz
  exact ⟨t + k * (r - t), by nlinarith [mul_nonneg k0 r0, mul_nonneg (sub_nonneg.2 k1) t0],
    by nlinarith [mul_nonneg k0 (sub_nonneg.2 r1), mul_nonneg (sub_nonneg.2 k1) (sub_nonneg.2 t1)], by module⟩

theorem LineCut.convex {l : Line} {R : V3 → Prop} {g : IsGeom} (h : LineCut l R g) {x y z : V3}
    (hx : Spec.OnLine l.supp l.dir x ∧ R x) (hy : Spec.OnLine l.supp l.dir y ∧ R y)
    (hz : Spec.OnSegment x y z) : Spec.OnLine l.supp l.dir z ∧ R z := by
  rcases h with h | ⟨c, h⟩ | ⟨a, b, _, h⟩
  · exact absurd hx.2 (h x hx.1)
  · obtain ⟨t, _, _, rfl⟩ := (Spec.onSegment_iff _ _ _).1 hz
    have e1 := (h x).1 hx
    have e2 := (h y).1 hy
    rw [h, e1, e2]; module
  · exact (h z).2 (segment_convex ((h x).1 hx) ((h y).1 hy) hz)

theorem LineCut.onLine {l : Line} {R : V3 → Prop} {g : IsGeom} (h : LineCut l R g) :
    LineCut l (fun p => Spec.OnLine l.supp l.dir p ∧ R p) g := by
  rcases h with h | ⟨c, h⟩ | ⟨a, b, hab, h⟩
  · exact .empty fun p hp hR => h p hp hR.2
  · exact .point c fun p => ⟨fun hp => (h p).1 hp.2, fun hp => ⟨((h p).2 hp).1, (h p).2 hp⟩⟩
  · exact .segment a b hab fun p => ⟨fun hp => (h p).1 hp.2, fun hp => ⟨((h p).2 hp).1, (h p).2 hp⟩⟩

/-- Of three points on a line one is between the others. -/
theorem line_between {o d x y z : V3} (hx : Spec.OnLine o d x) (hy : Spec.OnLine o d y)
    (hz : Spec.OnLine o d z) :
    Spec.OnSegment x y z ∨ Spec.OnSegment y z x ∨ Spec.OnSegment z x y := by
  obtain ⟨a, rfl⟩ := (Spec.onLine_iff _ _ _).1 hx
  obtain ⟨b, rfl⟩ := (Spec.onLine_iff _ _ _).1 hy
  obtain ⟨c, rfl⟩ := (Spec.onLine_iff _ _ _).1 hz
  have key : ∀ u v w : ℝ, u ≤ w → w ≤ v → Spec.OnSegment (o + u • d) (o + v • d) (o + w • d) ∧
      Spec.OnSegment (o + v • d) (o + u • d) (o + w • d) := by
    intro u v w h1 h2
    have hs : Spec.OnSegment (o + u • d) (o + v • d) (o + w • d) := by
      rcases eq_or_lt_of_le (h1.trans h2) with h | h
      · have : w = u := le_antisymm (h ▸ h2) h1
        exact (Spec.onSegment_iff _ _ _).2 ⟨0, le_rfl, zero_le_one, by rw [this]; module⟩
      · have hne : v - u ≠ 0 := by linarith
        refine (Spec.onSegment_iff _ _ _).2 ⟨(w - u) / (v - u), div_nonneg (by linarith) (by linarith),
          (div_le_one (by linarith)).2 (by linarith), ?_⟩
        have : w = u + (w - u) / (v - u) * (v - u) := by rw [div_mul_cancel₀ _ hne]; ring
        generalize (w - u) / (v - u) = k at *
        rw [this]; module
    refine ⟨hs, ?_⟩
    obtain ⟨t, t0, t1, e⟩ := (Spec.onSegment_iff _ _ _).1 hs
    exact (Spec.onSegment_iff _ _ _).2 ⟨1 - t, by linarith, by linarith, by rw [e]; module⟩
  rcases le_total a b with h1 | h1 <;> rcases le_total b c with h2 | h2 <;> rcases le_total a c with h3 | h3
  · exact .inr (.inr (key a c b h1 h2).2)
  · exact .inr (.inr (key a c b h1 h2).2)
  · exact .inl (key a b c h3 h2).1
  · exact .inr (.inl (key c b a h3 h1).2)
  · exact .inr (.inl (key b c a h1 h3).1)
  · exact .inl (key b a c h2 h3).2
  · exact .inr (.inr (key c a b h2 h1).1)
  · exact .inr (.inr (key c a b h2 h1).1)

theorem combine_near {K : Kernel} {l : Line} {R1 R2 : V3 → Prop} {g1 g2 g : IsGeom} {eps : ℝ}
    (he : 0 < eps) (hin : ∀ p, R1 p → R2 p → Spec.OnLine l.supp l.dir p)
    (h1 : LineCut l R1 g1) (h2 : LineCut l R2 g2) (h : combineOnLine K g1 g2 eps = .val g) :
    NearCommon R1 R2 eps g := by
  rintro ⟨c, c1, c2⟩ p hp
  have hcl := hin c c1 c2
  have hb := (combine_spec he (fun p hp _ => hp.1) h1.onLine h2.onLine h).1
  have hnear : NearSet (fun p => Spec.OnLine l.supp l.dir p ∧ R1 p) p eps ∧
      NearSet (fun p => Spec.OnLine l.supp l.dir p ∧ R2 p) p eps := by
    rcases hb with rfl | ⟨x, rfl, hx⟩ | ⟨s, rfl, hs⟩
    · rcases hp with hp | ⟨s, hp, _⟩ <;> cases hp
    · rcases hp with hp | ⟨s, hp, _⟩
      · cases hp; exact hx
      · cases hp
    · rcases hp with hp | ⟨s, hp, hps⟩
      · cases hp
      · cases hp; exact hs p hps
  obtain ⟨⟨x, hx, dx⟩, y, hy, dy⟩ := hnear
  rcases line_between hx.1 hy.1 hcl with hb | hb | hb
  · exact ⟨c, c1, c2, dist_between hb dx dy⟩
  · exact ⟨x, hx.2, (h2.convex hy ⟨hcl, c2⟩ hb).2, dx⟩
  · exact ⟨y, (h1.convex ⟨hcl, c1⟩ hx hb).2, hy.2, dy⟩

/-- The common points, if any, are a segment or a single point (then `e = f`). -/
def CommonSegment (R1 R2 : V3 → Prop) : Prop :=
  (∃ q, R1 q ∧ R2 q) → ∃ e f, ∀ p, (R1 p ∧ R2 p) ↔ Spec.OnSegment e f p

theorem onSegment_single {c p : V3} : Spec.OnSegment c c p ↔ p = c := by
  rw [Spec.onSegment_iff]
  constructor
  · rintro ⟨t, _, _, rfl⟩; module
  · rintro rfl; exact ⟨0, le_rfl, zero_le_one, by module⟩

theorem cuts_common {l : Line} {R1 R2 : V3 → Prop} {g1 g2 : IsGeom}
    (hin : ∀ p, R1 p → R2 p → Spec.OnLine l.supp l.dir p)
    (h1 : LineCut l R1 g1) (h2 : LineCut l R2 g2) : CommonSegment R1 R2 := by
  rintro ⟨q, q1, q2⟩
  have hq := hin q q1 q2
  have point : ∀ c, (∀ p, R1 p → R2 p → p = c) → ∃ e f, ∀ p, (R1 p ∧ R2 p) ↔ Spec.OnSegment e f p := by
    intro c hc
    have hqc := hc q q1 q2
    refine ⟨c, c, fun p => ?_⟩
    rw [onSegment_single]
    exact ⟨fun hp => hc p hp.1 hp.2, fun hp => by rw [hp, ← hqc]; exact ⟨q1, q2⟩⟩
  rcases h1 with h1 | ⟨c, h1⟩ | ⟨a1, b1, n1, h1⟩
  · exact absurd q1 (h1 q hq)
  · exact point c fun p p1 p2 => (h1 p).1 ⟨hin p p1 p2, p1⟩
  rcases h2 with h2 | ⟨c, h2⟩ | ⟨a2, b2, n2, h2⟩
  · exact absurd q2 (h2 q hq)
  · exact point c fun p p1 p2 => (h2 p).1 ⟨hin p p1 p2, p2⟩
  obtain ⟨o, d, x1, y1, x2, y2, hd, e1, e2⟩ := (cut_collinear h1 h2).axis (show a1 ≠ b1 from n1)
  simp only [Segment.mk.injEq] at e1 e2
  obtain ⟨rfl, rfl⟩ := e1
  obtain ⟨rfl, rfl⟩ := e2
  have both : ∀ p, (R1 p ∧ R2 p) ↔ Spec.OnSegment (onAxis o d x1) (onAxis o d y1) p ∧
      Spec.OnSegment (onAxis o d x2) (onAxis o d y2) p := by
    intro p
    rw [← h1, ← h2]
    exact ⟨fun h => ⟨⟨hin p h.1 h.2, h.1⟩, hin p h.1 h.2, h.2⟩, fun h => ⟨h.1.2, h.2.2⟩⟩
  refine ⟨onAxis o d (max (min x1 y1) (min x2 y2)), onAxis o d (min (max x1 y1) (max x2 y2)), fun p => ?_⟩
  have hle : max (min x1 y1) (min x2 y2) ≤ min (max x1 y1) (max x2 y2) := by
    have h := (both q).1 ⟨q1, q2⟩
    obtain ⟨z, hz1, hz2, rfl⟩ := (onAxis_segment _ _ _).1 h.1
    have hz := (onAxis_onSegment hd _ _ _).1 h.2
    exact (max_le hz1 hz.1).trans (le_min hz2 hz.2)
  rw [both]
  constructor
  · rintro ⟨k1, k2⟩
    obtain ⟨z, hz1, hz2, rfl⟩ := (onAxis_segment _ _ _).1 k1
    have hz := (onAxis_onSegment hd _ _ _).1 k2
    rw [onAxis_onSegment hd, min_eq_left hle, max_eq_right hle]
    exact ⟨max_le hz1 hz.1, le_min hz2 hz.2⟩
  · intro k
    obtain ⟨z, hz1, hz2, rfl⟩ := (onAxis_segment _ _ _).1 k
    rw [min_eq_left hle] at hz1
    rw [max_eq_right hle] at hz2
    rw [onAxis_onSegment hd, onAxis_onSegment hd]
    exact ⟨⟨(le_max_left _ _).trans hz1, hz2.trans (min_le_left _ _)⟩,
      ⟨(le_max_right _ _).trans hz1, hz2.trans (min_le_right _ _)⟩⟩

theorem pair_cuts {K : Kernel} {f1 f2 : FaceGeom} {R1 R2 : V3 → Prop} {L ce1 ce2 eps : ℝ} {l : Line}
    (h : ExactPair K f1 f2 R1 R2 L eps l) :
    ∃ g1 g2, LineCut l R1 g1 ∧ LineCut l R2 g2 ∧
      intersectPlanarPlanar K f1 f2 L ce1 ce2 eps = combineOnLine K g1 g2 eps := by
  obtain ⟨g1, e1, c1⟩ := planarLine_cut (K := K) (ce := ce1) h.eps_pos
    (fun p hp => ((h.line p).1 hp).1) h.cover1 h.cut1
  obtain ⟨g2, e2, c2⟩ := planarLine_cut (K := K) (ce := ce2) h.eps_pos
    (fun p hp => ((h.line p).1 hp).2) h.cover2 h.cut2
  refine ⟨g1, g2, c1, c2, ?_⟩
  unfold intersectPlanarPlanar intersectPlanePlane
  rw [if_neg h.not_parallel, h.kernel]
  simp only
  rw [mkDirection_of_unit h.unit]
  show Outcome.bind _ _ = _
  simp only [Outcome.val_bind, Outcome.pure_eq, Outcome.bind]
  rw [e1, Outcome.val_bind, e2, Outcome.val_bind]

/-- The property: the result is on both geometries, and contains all common points. -/
def C50_full : Prop :=
  ∀ (K : Kernel) (f1 f2 : FaceGeom) (R1 R2 : V3 → Prop) (L ce1 ce2 eps : ℝ) (l : Line) (g : IsGeom),
    ExactPair K f1 f2 R1 R2 L eps l → intersectPlanarPlanar K f1 f2 L ce1 ce2 eps = .val g →
    OnBoth R1 R2 eps g ∧ CoversCommon R1 R2 g

/-- The result is on both geometries, close to their common points (which are a segment, if any), and contains all common points unless
both geometries meet the line of intersection of their planes in one and the same single point.  Missing: that case,
in which the code returns an empty intersection (`C50_disproof`). -/
theorem C50_result_partial (K : Kernel) (f1 f2 : FaceGeom) (R1 R2 : V3 → Prop) (L ce1 ce2 eps : ℝ)
    (l : Line) (g : IsGeom) (h : ExactPair K f1 f2 R1 R2 L eps l)
    (hg : intersectPlanarPlanar K f1 f2 L ce1 ce2 eps = .val g) :
    OnBoth R1 R2 eps g ∧
    ((¬ ∃ c, (∀ p, (Spec.OnLine l.supp l.dir p ∧ R1 p) ↔ p = c) ∧
      (∀ p, (Spec.OnLine l.supp l.dir p ∧ R2 p) ↔ p = c)) → CoversCommon R1 R2 g) ∧
    NearCommon R1 R2 eps g ∧ CommonSegment R1 R2 := by
  obtain ⟨g1, g2, c1, c2, e⟩ := pair_cuts (ce1 := ce1) (ce2 := ce2) h
  rw [e] at hg
  obtain ⟨h1, h2⟩ := combine_spec h.eps_pos
    (fun p p1 p2 => (h.line p).2 ⟨h.inside1 p p1, h.inside2 p p2⟩) c1 c2 hg
  refine ⟨h1, fun hno => ?_, combine_near h.eps_pos
    (fun p p1 p2 => (h.line p).2 ⟨h.inside1 p p1, h.inside2 p p2⟩) c1 c2 hg,
    cuts_common (fun p p1 p2 => (h.line p).2 ⟨h.inside1 p p1, h.inside2 p p2⟩) c1 c2⟩
  rcases h2 with h2 | ⟨c, hc1, hc2⟩
  · exact h2
  · exfalso
    apply hno
    refine ⟨c, ?_, ?_⟩
    · rw [hc1] at c1
      rcases c1 with _ | ⟨_, hc⟩ | _
      exact hc
    · rw [hc2] at c2
      rcases c2 with _ | ⟨_, hc⟩ | _
      exact hc

/-- In the missing case the result is empty, always. -/
theorem C50_touching_lost (K : Kernel) (f1 f2 : FaceGeom) (R1 R2 : V3 → Prop) (L ce1 ce2 eps : ℝ)
    (l : Line) (c : V3) (h : ExactPair K f1 f2 R1 R2 L eps l)
    (hc1 : ∀ p, (Spec.OnLine l.supp l.dir p ∧ R1 p) ↔ p = c)
    (hc2 : ∀ p, (Spec.OnLine l.supp l.dir p ∧ R2 p) ↔ p = c) :
    intersectPlanarPlanar K f1 f2 L ce1 ce2 eps = .val .empty := by
  obtain ⟨g1, g2, c1, c2, e⟩ := pair_cuts (ce1 := ce1) (ce2 := ce2) h
  rw [e]
  have key : ∀ {R : V3 → Prop} {g : IsGeom}, LineCut l R g →
      (∀ p, (Spec.OnLine l.supp l.dir p ∧ R p) ↔ p = c) → ∃ x, g = .point x := by
    intro R g hcut hc
    rcases hcut with hh | ⟨x, _⟩ | ⟨a, b, hab, hh⟩
    · exact absurd ((hc c).2 rfl).2 (hh c ((hc c).2 rfl).1)
    · exact ⟨x, rfl⟩
    · exfalso
      apply hab
      have ha := (hc a).1 ((hh a).2 ((Spec.onSegment_iff _ _ _).2 ⟨0, le_rfl, zero_le_one, by module⟩))
      have hb := (hc b).1 ((hh b).2 ((Spec.onSegment_iff _ _ _).2 ⟨1, zero_le_one, le_rfl, by module⟩))
      rw [ha, hb]
  obtain ⟨x1, rfl⟩ := key c1 hc1
  obtain ⟨x2, rfl⟩ := key c2 hc2
  rfl

/-- Parallel planes: they are reported as not intersecting exactly if they are at least the tolerance
apart; entities in the same plane raise an error. -/
theorem C50_parallel_planes (K : Kernel) (f1 f2 : FaceGeom) (R1 R2 : V3 → Prop) (L ce1 ce2 eps : ℝ)
    (hn : Spec.IsUnit f1.plane.normal) (he : 0 < eps)
    (hpar : f2.plane.normal = f1.plane.normal ∨ f2.plane.normal = -f1.plane.normal)
    (inside1 : ∀ p, R1 p → Spec.OnPlane f1.plane.supp f1.plane.normal p)
    (inside2 : ∀ p, R2 p → Spec.OnPlane f2.plane.supp f2.plane.normal p) :
    (intersectPlanarPlanar K f1 f2 L ce1 ce2 eps = .val .empty ∧ ¬ ∃ p, R1 p ∧ R2 p) ∨
    ((intersectPlanarPlanar K f1 f2 L ce1 ce2 eps).isThrown ∧
      |Spec.inner f1.plane.normal (f2.plane.supp - f1.plane.supp)| < eps) := by
  have hp : gpIsParallel f1.plane.normal f2.plane.normal angular :=
    gpIsParallel_same hn (.inl rfl) hpar
  unfold intersectPlanarPlanar intersectPlanePlane
  rw [if_pos hp]
  by_cases hc : f1.plane.contains f2.plane.supp eps
  · right
    rw [if_pos hc, Outcome.val_bind]
    unfold Plane.contains at hc
    refine ⟨trivial, ?_⟩
    rw [Spec.inner_eq_dot]
    first | exact hc | (rw [V3.dot_comm]; exact hc)
  · left
    rw [if_neg hc, Outcome.val_bind]
    refine ⟨rfl, ?_⟩
    rintro ⟨p, p1, p2⟩
    apply hc
    have e1 := (Spec.onPlane_iff _ _ _).1 (inside1 p p1)
    have e2 := (Spec.onPlane_iff _ _ _).1 (inside2 p p2)
    have e3 : f1.plane.normal.dot (p - f2.plane.supp) = 0 := by
      rcases hpar with h | h
      · rw [← h]; exact e2
      · rw [h, V3.neg_dot, neg_eq_zero] at e2; exact e2
    unfold Plane.contains
    rw [V3.dot_comm, show f2.plane.supp - f1.plane.supp = (p - f1.plane.supp) - (p - f2.plane.supp) by module,
      V3.dot_sub, e1, e3, sub_zero, abs_zero]
    exact he

/-! ## Pairs of geometries -/

/-- The planes are not parallel (within the angular tolerance), and the kernel intersects them exactly,
in the line `l`. -/
structure ExactLine (K : Kernel) (p1 p2 : Plane) (eps : ℝ) (l : Line) : Prop where
  not_parallel : ¬ gpIsParallel p1.normal p2.normal angular
  kernel : K.planePlane p1 p2 eps = some (l.supp, l.dir)
  unit : Spec.IsUnit l.dir
  line : ∀ p, Spec.OnLine l.supp l.dir p ↔
    Spec.OnPlane p1.supp p1.normal p ∧ Spec.OnPlane p2.supp p2.normal p

theorem CoveredBy.mono {s : Segment} {m m' : ℝ} {p : V3} (h : CoveredBy s m p) (hm : m' ≤ m) :
    CoveredBy s m' p := ⟨h.1, hm.trans h.2.1, hm.trans h.2.2⟩

/-- The set of the points of a disk. -/
def Elliptical.region (d : Elliptical) (p : V3) : Prop :=
  Spec.InDisk d.center d.major d.minor d.majLen d.minLen p

theorem region_inPlane {d : Elliptical} (h : ValidElliptical d) {p : V3} (hp : Elliptical.region d p) :
    Spec.OnPlane d.supportingPlane.supp d.supportingPlane.normal p := by
  obtain ⟨x, y, _, rfl⟩ := hp
  obtain ⟨_, _, _, _, h1, h2, _⟩ := h.frame
  unfold Spec.Orthogonal Spec.inner at h1 h2
  show Spec.OnPlane d.center d.normal _
  simp only [Spec.OnPlane, Spec.localPoint]
  linear_combination x * h2 + y * h1

theorem hull_inPlane {cs : List V3} {q n p : V3} (h : ∀ c ∈ cs, Spec.OnPlane q n c)
    (hp : Spec.InHull cs p) : Spec.OnPlane q n p := by
  have h1 := hull_nonneg (m := n) (a := n.dot q) hp (by
    intro c hc
    have := (Spec.onPlane_iff _ _ _).1 (h c hc)
    rw [V3.dot_sub] at this; linarith)
  have h2 := hull_nonneg (m := -n) (a := -n.dot q) hp (by
    intro c hc
    have := (Spec.onPlane_iff _ _ _).1 (h c hc)
    rw [V3.dot_sub] at this; rw [V3.neg_dot]; linarith)
  rw [V3.neg_dot] at h2
  rw [Spec.onPlane_iff, V3.dot_sub]; linarith

/-- What is proved for each pair of geometries: the result is on both, close to the common points, and contains all
common points unless both geometries meet the line of intersection in the same single point. -/
def PairResult (R1 R2 : V3 → Prop) (l : Line) (eps : ℝ) (g : IsGeom) : Prop :=
  OnBoth R1 R2 eps g ∧
  ((¬ ∃ c, (∀ p, (Spec.OnLine l.supp l.dir p ∧ R1 p) ↔ p = c) ∧
    (∀ p, (Spec.OnLine l.supp l.dir p ∧ R2 p) ↔ p = c)) → CoversCommon R1 R2 g) ∧
  NearCommon R1 R2 eps g ∧ CommonSegment R1 R2

/-- Two disks. -/
theorem C50_disk_disk_partial (K : Kernel) (d1 d2 : Elliptical) (ops1 ops2 : ShapeOps) (eps : ℝ)
    (l : Line) (g : IsGeom) (h1 : ValidElliptical d1) (h2 : ValidElliptical d2)
    (hmin1 : d1.minLen ≤ d1.majLen) (hmin2 : d2.minLen ≤ d2.majLen)
    (he : 0 < eps) (hle : eps ≤ 19 * diskDiskCharLength d1 d2)
    (hl : ExactLine K d1.supportingPlane d2.supportingPlane eps l)
    (hc1 : ExactCut (diskFace d1 ops1) (Elliptical.region d1)
      (probingSegment d1.center l (diskDiskCharLength d1 d2)) (0.1 * eps))
    (hc2 : ExactCut (diskFace d2 ops2) (Elliptical.region d2)
      (probingSegment d2.center l (diskDiskCharLength d1 d2)) (0.1 * eps))
    (hg : intersectDiskDisk K d1 d2 ops1 ops2 eps = .val g) :
    PairResult (Elliptical.region d1) (Elliptical.region d2) l eps g := by
  refine C50_result_partial K (diskFace d1 ops1) (diskFace d2 ops2) _ _ (diskDiskCharLength d1 d2)
    confusion confusion eps l g ?_ hg
  have hcov := C54_disk_disk d1 d2 l h1 h2 hmin1 hmin2 hl.unit
  exact ⟨he, fun p => region_inPlane h1, fun p => region_inPlane h2, hl.not_parallel, hl.kernel, hl.unit,
    hl.line, fun p hp hR => ((hcov p hp).1 hR).mono hle, fun p hp hR => ((hcov p hp).2 hR).mono hle,
    hc1, hc2⟩

/-- Quadrilateral and disk. -/
theorem C50_quadrilateral_disk_partial (K : Kernel) (p0 p1 p2 p3 : V3) (d : Elliptical)
    (ops1 ops2 : ShapeOps) (f : FaceGeom) (eps : ℝ) (l : Line) (g : IsGeom)
    (hf : quadFace (Quadrilateral.make p0 p1 p2 p3) ops1 = .val f)
    (hplanar : ∀ c ∈ [p0, p1, p2, p3], Spec.OnPlane f.plane.supp f.plane.normal c)
    (h : ValidElliptical d) (hmin : d.minLen ≤ d.majLen)
    (he : 0 < eps) (hle : eps ≤ 18 * quadDiskCharLength (Quadrilateral.make p0 p1 p2 p3) d)
    (hl : ExactLine K f.plane d.supportingPlane eps l)
    (hc1 : ExactCut f (Spec.InHull [p0, p1, p2, p3])
      (probingSegment f.center l (quadDiskCharLength (Quadrilateral.make p0 p1 p2 p3) d)) (0.1 * eps))
    (hc2 : ExactCut (diskFace d ops2) (Elliptical.region d)
      (probingSegment d.center l (quadDiskCharLength (Quadrilateral.make p0 p1 p2 p3) d)) (0.1 * eps))
    (hg : intersectQuadDisk K (Quadrilateral.make p0 p1 p2 p3) d ops1 ops2 eps = .val g) :
    PairResult (Spec.InHull [p0, p1, p2, p3]) (Elliptical.region d) l eps g := by
  unfold intersectQuadDisk at hg
  rw [hf, Outcome.val_bind] at hg
  have hcen : (Quadrilateral.make p0 p1 p2 p3).center = .val f.center := by
    unfold quadFace at hf
    obtain ⟨pl, _, hf⟩ := Outcome.bind_eq_val.1 hf
    obtain ⟨c, hc, hf⟩ := Outcome.bind_eq_val.1 hf
    simp only [Outcome.pure_eq, Outcome.val.injEq] at hf
    rw [hc, ← hf]
  have hcov := C54_quadrilateral_disk p0 p1 p2 p3 f.center d l hcen h hmin hl.unit
  refine C50_result_partial K f (diskFace d ops2) _ _ _ eps eps eps l g
    ⟨he, fun p => hull_inPlane hplanar, fun p => region_inPlane h, hl.not_parallel, hl.kernel, hl.unit,
    hl.line, fun p hp hR => ((hcov p hp).1 hR).mono hle, fun p hp hR => ((hcov p hp).2 hR).mono ?_,
    hc1, hc2⟩ hg
  linarith

/-- Two quadrilaterals. -/
theorem C50_quadrilateral_quadrilateral_partial (K : Kernel) (a0 a1 a2 a3 b0 b1 b2 b3 : V3)
    (ops1 ops2 : ShapeOps) (f1 f2 : FaceGeom) (eps : ℝ) (l : Line) (g : IsGeom)
    (hf1 : quadFace (Quadrilateral.make a0 a1 a2 a3) ops1 = .val f1)
    (hf2 : quadFace (Quadrilateral.make b0 b1 b2 b3) ops2 = .val f2)
    (hplanar1 : ∀ c ∈ [a0, a1, a2, a3], Spec.OnPlane f1.plane.supp f1.plane.normal c)
    (hplanar2 : ∀ c ∈ [b0, b1, b2, b3], Spec.OnPlane f2.plane.supp f2.plane.normal c)
    (he : 0 < eps) (hle : eps ≤ 18 *
      quadQuadCharLength (Quadrilateral.make a0 a1 a2 a3) (Quadrilateral.make b0 b1 b2 b3))
    (hl : ExactLine K f1.plane f2.plane eps l)
    (hc1 : ExactCut f1 (Spec.InHull [a0, a1, a2, a3]) (probingSegment f1.center l
      (quadQuadCharLength (Quadrilateral.make a0 a1 a2 a3) (Quadrilateral.make b0 b1 b2 b3))) (0.1 * eps))
    (hc2 : ExactCut f2 (Spec.InHull [b0, b1, b2, b3]) (probingSegment f2.center l
      (quadQuadCharLength (Quadrilateral.make a0 a1 a2 a3) (Quadrilateral.make b0 b1 b2 b3))) (0.1 * eps))
    (hg : intersectQuadQuad K (Quadrilateral.make a0 a1 a2 a3) (Quadrilateral.make b0 b1 b2 b3) ops1 ops2
      eps = .val g) :
    PairResult (Spec.InHull [a0, a1, a2, a3]) (Spec.InHull [b0, b1, b2, b3]) l eps g := by
  unfold intersectQuadQuad at hg
  by_cases hconv : ¬ (Quadrilateral.make a0 a1 a2 a3).isConvex ∨ ¬ (Quadrilateral.make b0 b1 b2 b3).isConvex
  · rw [if_pos hconv] at hg; cases hg
  rw [if_neg hconv, hf1, Outcome.val_bind, hf2, Outcome.val_bind] at hg
  have hcen : ∀ {q : Quadrilateral} {ops : ShapeOps} {f : FaceGeom}, quadFace q ops = .val f →
      q.center = .val f.center := by
    intro q ops f hf
    unfold quadFace at hf
    obtain ⟨pl, _, hf⟩ := Outcome.bind_eq_val.1 hf
    obtain ⟨c, hc, hf⟩ := Outcome.bind_eq_val.1 hf
    simp only [Outcome.pure_eq, Outcome.val.injEq] at hf
    rw [hc, ← hf]
  have hcov := C54_quadrilateral_quadrilateral a0 a1 a2 a3 b0 b1 b2 b3 f1.center f2.center l
    (hcen hf1) (hcen hf2) hl.unit
  exact C50_result_partial K f1 f2 _ _ _ eps eps eps l g
    ⟨he, fun p => hull_inPlane hplanar1, fun p => hull_inPlane hplanar2, hl.not_parallel, hl.kernel,
    hl.unit, hl.line, fun p hp hR => ((hcov p hp).1 hR).mono hle,
    fun p hp hR => ((hcov p hp).2 hR).mono hle, hc1, hc2⟩ hg

theorem polygon_corners {cs : List V3} {pg : Polygon} (h : Polygon.make cs = .val pg) :
    pg.corners = cs := by
  unfold Polygon.make at h
  split_ifs at h
  obtain ⟨_, _, h⟩ := Outcome.bind_eq_val.1 h
  simp only [Outcome.pure_eq, Outcome.val.injEq] at h
  rw [← h]

/-- Two polygons. -/
theorem C50_polygon_polygon_partial (K : Kernel) (pg1 pg2 : Polygon) (cs1 cs2 : List V3)
    (ops1 ops2 : ShapeOps) (f1 f2 : FaceGeom) (eps : ℝ) (l : Line) (g : IsGeom)
    (hm1 : Polygon.make cs1 = .val pg1) (hm2 : Polygon.make cs2 = .val pg2)
    (hf1 : polygonFace pg1 ops1 = .val f1) (hf2 : polygonFace pg2 ops2 = .val f2)
    (hplanar1 : ∀ c ∈ cs1, Spec.OnPlane f1.plane.supp f1.plane.normal c)
    (hplanar2 : ∀ c ∈ cs2, Spec.OnPlane f2.plane.supp f2.plane.normal c)
    (he : 0 < eps) (hle : eps ≤ 19 * polygonPolygonCharLength cs1 f1.center cs2 f2.center)
    (hl : ExactLine K f1.plane f2.plane eps l)
    (hc1 : ExactCut f1 (Spec.InHull cs1) (probingSegment f1.center l
      (polygonPolygonCharLength cs1 f1.center cs2 f2.center)) (0.1 * eps))
    (hc2 : ExactCut f2 (Spec.InHull cs2) (probingSegment f2.center l
      (polygonPolygonCharLength cs1 f1.center cs2 f2.center)) (0.1 * eps))
    (hg : intersectPolygonPolygon K pg1 pg2 ops1 ops2 eps = .val g) :
    PairResult (Spec.InHull cs1) (Spec.InHull cs2) l eps g := by
  unfold intersectPolygonPolygon at hg
  by_cases hconv : ¬ pg1.isConvex ∨ ¬ pg2.isConvex
  · rw [if_pos hconv] at hg; cases hg
  rw [if_neg hconv, hf1, Outcome.val_bind, hf2, Outcome.val_bind] at hg
  rw [polygon_corners hm1, polygon_corners hm2] at hg
  have hcov := C54_polygon_polygon cs1 cs2 pg1 f1.center f2.center l hm1 hl.unit
  exact C50_result_partial K f1 f2 _ _ _ eps eps eps l g
    ⟨he, fun p => hull_inPlane hplanar1, fun p => hull_inPlane hplanar2, hl.not_parallel, hl.kernel,
    hl.unit, hl.line, fun p hp hR => ((hcov p hp).1 hR).mono hle,
    fun p hp hR => ((hcov p hp).2 hR).mono hle, hc1, hc2⟩ hg

/-- Polygon and disk, with a disk that is not too large for the segment used in place of the line. -/
theorem C50_polygon_disk_partial (K : Kernel) (pg : Polygon) (cs : List V3) (d : Elliptical)
    (ops1 ops2 : ShapeOps) (f : FaceGeom) (eps : ℝ) (l : Line) (g : IsGeom)
    (hm : Polygon.make cs = .val pg) (hf : polygonFace pg ops1 = .val f)
    (hplanar : ∀ c ∈ cs, Spec.OnPlane f.plane.supp f.plane.normal c)
    (h : ValidElliptical d) (hmin : d.minLen ≤ d.majLen)
    (he : 0 < eps) (hle : eps ≤ 19 * polygonDiskCharLength cs f.center)
    (hsmall : d.majLen + eps ≤ 20 * polygonDiskCharLength cs f.center)
    (hl : ExactLine K f.plane d.supportingPlane eps l)
    (hc1 : ExactCut f (Spec.InHull cs) (probingSegment f.center l
      (polygonDiskCharLength cs f.center)) (0.1 * eps))
    (hc2 : ExactCut (diskFace d ops2) (Elliptical.region d) (probingSegment d.center l
      (polygonDiskCharLength cs f.center)) (0.1 * eps))
    (hg : intersectPolygonDisk K pg d ops1 ops2 eps = .val g) :
    PairResult (Spec.InHull cs) (Elliptical.region d) l eps g := by
  unfold intersectPolygonDisk at hg
  rw [hf, Outcome.val_bind, polygon_corners hm] at hg
  exact C50_result_partial K f (diskFace d ops2) _ _ _ eps eps eps l g
    ⟨he, fun p => hull_inPlane hplanar, fun p => region_inPlane h, hl.not_parallel, hl.kernel,
    hl.unit, hl.line,
    fun p hp hR => (C54_polygon_disk_partial cs pg f.center l hm hl.unit p hp hR).mono hle,
    fun p hp hR => (C54_polygon_small_disk_partial cs pg f.center d l hm hl.unit h hmin
      (by linarith) p hp hR).mono (by linarith), hc1, hc2⟩ hg

/-! ## Two disks that touch -/

/-- Unit disk in the plane `z = 0`, at the distance `t` of its centre from the x axis. -/
noncomputable def flatDisk (t : ℝ) : Elliptical := ⟨⟨0, t, 0⟩, ⟨1, 0, 0⟩, ⟨0, 1, 0⟩, ⟨0, 0, 1⟩, 1, 1⟩

/-- Unit disk in the plane `y = 0`, at the distance `t` of its centre from the x axis. -/
noncomputable def uprightDisk (t : ℝ) : Elliptical := ⟨⟨0, 0, t⟩, ⟨1, 0, 0⟩, ⟨0, 0, 1⟩, ⟨0, -1, 0⟩, 1, 1⟩

theorem flatDisk_valid (t : ℝ) : ValidElliptical (flatDisk t) :=
  ⟨by norm_num [flatDisk, Spec.RightHandedOrthonormal, Spec.IsUnit, Spec.Orthogonal, Spec.inner, Spec.det],
    by norm_num [flatDisk], by norm_num [flatDisk]⟩

theorem uprightDisk_valid (t : ℝ) : ValidElliptical (uprightDisk t) :=
  ⟨by norm_num [uprightDisk, Spec.RightHandedOrthonormal, Spec.IsUnit, Spec.Orthogonal, Spec.inner,
      Spec.det],
    by norm_num [uprightDisk], by norm_num [uprightDisk]⟩

/-- A kernel that intersects the two planes exactly. -/
def xAxisKernel : Kernel := ⟨fun _ _ _ => some (0, ⟨1, 0, 0⟩), fun _ _ => none, fun _ _ _ => []⟩

theorem xAxis_exactLine (t s eps : ℝ) :
    ExactLine xAxisKernel (flatDisk t).supportingPlane (uprightDisk s).supportingPlane eps xLine where
  not_parallel := by
    show ¬ gpIsParallel (⟨0, 0, 1⟩ : V3) ⟨0, -1, 0⟩ angular
    unfold gpIsParallel gpAngle
    have h0 : (⟨0, 0, 1⟩ : V3).dot ⟨0, -1, 0⟩ = 0 := by simp [V3.dot]
    rw [h0, zero_div, Real.arccos_zero]
    have := Real.two_le_pi
    have : angular < 1 := by unfold angular; norm_num
    rintro (h | h) <;> linarith
  kernel := rfl
  unit := by norm_num [xLine, Spec.IsUnit]
  line p := by
    show Spec.OnLine (0 : V3) ⟨1, 0, 0⟩ p ↔
      Spec.OnPlane (⟨0, t, 0⟩ : V3) ⟨0, 0, 1⟩ p ∧ Spec.OnPlane (⟨0, 0, s⟩ : V3) ⟨0, -1, 0⟩ p
    constructor
    · rintro ⟨k, hx, hy, hz⟩
      simp at hx hy hz
      exact ⟨by simp [Spec.OnPlane, hz], by simp [Spec.OnPlane, hy]⟩
    · rintro ⟨h1, h2⟩
      simp [Spec.OnPlane] at h1 h2
      exact ⟨p.x, by simp, by simpa using h2, by simpa using h1⟩

theorem flat_region_axis (t : ℝ) (p : V3) :
    (Spec.OnLine xLine.supp xLine.dir p ∧ Elliptical.region (flatDisk t) p) ↔
    p.y = 0 ∧ p.z = 0 ∧ p.x ^ 2 + t ^ 2 ≤ 1 := by
  constructor
  · rintro ⟨⟨k, hx, hy, hz⟩, x, y, h, hp⟩
    simp [xLine] at hx hy hz
    have hpx := congrArg V3.x hp
    have hpy := congrArg V3.y hp
    simp [Spec.localPoint, flatDisk] at hpx hpy h
    refine ⟨hy, hz, ?_⟩
    have : y = -t := by linarith
    rw [hpx]; rw [this] at h; nlinarith
  · rintro ⟨hy, hz, h⟩
    refine ⟨⟨p.x, by simp [xLine], by simpa [xLine] using hy, by simpa [xLine] using hz⟩, p.x, -t,
      by simpa [flatDisk] using h, ?_⟩
    ext <;> simp [Spec.localPoint, flatDisk, hy, hz]

theorem upright_region_axis (t : ℝ) (p : V3) :
    (Spec.OnLine xLine.supp xLine.dir p ∧ Elliptical.region (uprightDisk t) p) ↔
    p.y = 0 ∧ p.z = 0 ∧ p.x ^ 2 + t ^ 2 ≤ 1 := by
  constructor
  · rintro ⟨⟨k, hx, hy, hz⟩, x, y, h, hp⟩
    simp [xLine] at hx hy hz
    have hpx := congrArg V3.x hp
    have hpz := congrArg V3.z hp
    simp [Spec.localPoint, uprightDisk] at hpx hpz h
    refine ⟨hy, hz, ?_⟩
    have : y = -t := by linarith
    rw [hpx]; rw [this] at h; nlinarith
  · rintro ⟨hy, hz, h⟩
    refine ⟨⟨p.x, by simp [xLine], by simpa [xLine] using hy, by simpa [xLine] using hz⟩, p.x, -t,
      by simpa [uprightDisk] using h, ?_⟩
    ext <;> simp [Spec.localPoint, uprightDisk, hy, hz]

/-- Exact operations for a disk that touches the x axis at the origin. -/
noncomputable def touchOps : ShapeOps := ⟨fun _ _ => [], fun s _ => [s.source, 0, 0, s.target]⟩

/-- Exact operations for a disk around the origin. -/
noncomputable def crossOps : ShapeOps := ⟨fun _ _ => [[⟨-1, 0, 0⟩, ⟨1, 0, 0⟩]], fun _ _ => []⟩

theorem touch_iff {R : V3 → Prop}
    (h : ∀ p, (Spec.OnLine xLine.supp xLine.dir p ∧ R p) ↔ p.y = 0 ∧ p.z = 0 ∧ p.x ^ 2 + (1 : ℝ) ^ 2 ≤ 1) :
    ∀ p, (Spec.OnLine xLine.supp xLine.dir p ∧ R p) ↔ p = 0 := by
  intro p
  rw [h p]
  constructor
  · rintro ⟨hy, hz, hx⟩
    have : p.x = 0 := by nlinarith [sq_nonneg p.x]
    ext <;> simp [this, hy, hz]
  · rintro rfl; simp

theorem cross_iff {R : V3 → Prop}
    (h : ∀ p, (Spec.OnLine xLine.supp xLine.dir p ∧ R p) ↔ p.y = 0 ∧ p.z = 0 ∧ p.x ^ 2 + (0 : ℝ) ^ 2 ≤ 1) :
    ∀ p, (Spec.OnLine xLine.supp xLine.dir p ∧ R p) ↔ Spec.OnSegment ⟨-1, 0, 0⟩ ⟨1, 0, 0⟩ p := by
  intro p
  rw [h p]
  constructor
  · rintro ⟨hy, hz, hx⟩
    refine ⟨(p.x + 1) / 2, by nlinarith, by nlinarith, by simp; ring, by simpa using hy,
      by simpa using hz⟩
  · rintro ⟨t, h0, h1, hx, hy, hz⟩
    simp at hx hy hz
    refine ⟨hy, hz, ?_⟩
    rw [hx]; nlinarith

theorem cut_of_line {R S : V3 → Prop} {L : ℝ} {c : V3}
    (hcov : ∀ p, Spec.OnLine xLine.supp xLine.dir p → R p → CoveredBy (probingSegment c xLine L) 1 p)
    (h : ∀ p, (Spec.OnLine xLine.supp xLine.dir p ∧ R p) ↔ S p) :
    ∀ p, (Spec.OnSegment (probingSegment c xLine L).source (probingSegment c xLine L).target p ∧ R p) ↔
      S p := by
  intro p
  rw [← h p]
  exact ⟨fun hp => ⟨probing_onLine hp.1, hp.2⟩, fun hp => ⟨(hcov p hp.1 hp.2).1, hp.2⟩⟩

theorem unit_charLength (t s : ℝ) : diskDiskCharLength (flatDisk t) (uprightDisk s) = 1 := by
  simp [diskDiskCharLength, flatDisk, uprightDisk]

theorem unit_cover (t s : ℝ) (p : V3) (hp : Spec.OnLine xLine.supp xLine.dir p) :
    (Elliptical.region (flatDisk t) p → CoveredBy (probingSegment (flatDisk t).center xLine 1) 1 p) ∧
    (Elliptical.region (uprightDisk s) p →
      CoveredBy (probingSegment (uprightDisk s).center xLine 1) 1 p) := by
  have := C54_disk_disk (flatDisk t) (uprightDisk s) xLine (flatDisk_valid t) (uprightDisk_valid s)
    (by simp [flatDisk]) (by simp [uprightDisk]) (by norm_num [xLine, Spec.IsUnit]) p hp
  simp only [unit_charLength] at this
  exact ⟨fun h => (this.1 h).mono (by norm_num), fun h => (this.2 h).mono (by norm_num)⟩

theorem touch_pair : ExactPair xAxisKernel (diskFace (flatDisk 1) touchOps) (diskFace (uprightDisk 1) touchOps)
    (Elliptical.region (flatDisk 1)) (Elliptical.region (uprightDisk 1)) 1 1 xLine where
  eps_pos := one_pos
  inside1 _ := region_inPlane (flatDisk_valid 1)
  inside2 _ := region_inPlane (uprightDisk_valid 1)
  not_parallel := (xAxis_exactLine 1 1 1).not_parallel
  kernel := rfl
  unit := (xAxis_exactLine 1 1 1).unit
  line := (xAxis_exactLine 1 1 1).line
  cover1 p hp := (unit_cover 1 1 p hp).1
  cover2 p hp := (unit_cover 1 1 p hp).2
  cut1 := .touching 0 (cut_of_line (fun p hp => (unit_cover 1 1 p hp).1)
    (touch_iff (flat_region_axis 1))) rfl rfl (by simp [diskFace, touchOps])
    (by intro v hv; simp [diskFace, touchOps] at hv; tauto)
  cut2 := .touching 0 (cut_of_line
    (fun p hp => (unit_cover 1 1 p hp).2)
    (touch_iff (upright_region_axis 1))) rfl rfl (by simp [diskFace, touchOps])
    (by intro v hv; simp [diskFace, touchOps] at hv; tauto)

theorem origin_common : Elliptical.region (flatDisk 1) 0 ∧ Elliptical.region (uprightDisk 1) 0 :=
  ⟨((touch_iff (flat_region_axis 1) 0).2 rfl).2, ((touch_iff (upright_region_axis 1) 0).2 rfl).2⟩

/-- The property does not hold: two disks that touch each other in one point of the line of intersection
of their planes have an empty intersection. -/
theorem C50_disproof : ¬ C50_full := by
  intro h
  have hr := C50_touching_lost xAxisKernel _ _ _ _ 1 confusion confusion 1 xLine 0 touch_pair
    (touch_iff (flat_region_axis 1)) (touch_iff (upright_region_axis 1))
  have := (h xAxisKernel _ _ _ _ 1 confusion confusion 1 xLine .empty touch_pair hr).2 0
    origin_common.1 origin_common.2
  rcases this with h | ⟨s, h, _⟩ <;> cases h

/-- The same in terms of the call for two disks: they have a common point, and the result is empty. -/
theorem C50_disks_lost : (∃ p, Elliptical.region (flatDisk 1) p ∧ Elliptical.region (uprightDisk 1) p) ∧
    intersectDiskDisk xAxisKernel (flatDisk 1) (uprightDisk 1) touchOps touchOps 1 = .val .empty := by
  refine ⟨⟨0, origin_common⟩, ?_⟩
  unfold intersectDiskDisk
  rw [unit_charLength]
  exact C50_touching_lost xAxisKernel _ _ _ _ 1 confusion confusion 1 xLine 0 touch_pair
    (touch_iff (flat_region_axis 1)) (touch_iff (upright_region_axis 1))

/-- Two disks around the origin: the intersection is a segment with all common points. -/
theorem cross_result : ∃ g, intersectDiskDisk xAxisKernel (flatDisk 0) (uprightDisk 0) crossOps crossOps 1
    = .val g ∧
    PairResult (Elliptical.region (flatDisk 0)) (Elliptical.region (uprightDisk 0)) xLine 1 g := by
  have c1 : ExactCut (diskFace (flatDisk 0) crossOps) (Elliptical.region (flatDisk 0))
      (probingSegment (flatDisk 0).center xLine 1) (0.1 * 1) :=
    .crossing ⟨-1, 0, 0⟩ ⟨1, 0, 0⟩ (by intro h; have := congrArg V3.x h; norm_num at this)
      (cut_of_line (fun p hp => (unit_cover 0 0 p hp).1)
        (cross_iff (flat_region_axis 0))) rfl
  have c2 : ExactCut (diskFace (uprightDisk 0) crossOps) (Elliptical.region (uprightDisk 0))
      (probingSegment (uprightDisk 0).center xLine 1) (0.1 * 1) :=
    .crossing ⟨-1, 0, 0⟩ ⟨1, 0, 0⟩ (by intro h; have := congrArg V3.x h; norm_num at this)
      (cut_of_line (fun p hp => (unit_cover 0 0 p hp).2)
        (cross_iff (upright_region_axis 0))) rfl
  have hpair : ExactPair xAxisKernel (diskFace (flatDisk 0) crossOps) (diskFace (uprightDisk 0) crossOps)
      (Elliptical.region (flatDisk 0)) (Elliptical.region (uprightDisk 0)) 1 1 xLine :=
    ⟨one_pos, fun _ => region_inPlane (flatDisk_valid 0), fun _ => region_inPlane (uprightDisk_valid 0),
      (xAxis_exactLine 0 0 1).not_parallel, rfl, (xAxis_exactLine 0 0 1).unit, (xAxis_exactLine 0 0 1).line,
      fun p hp => (unit_cover 0 0 p hp).1, fun p hp => (unit_cover 0 0 p hp).2, c1, c2⟩
  have hv : ∃ g, intersectDiskDisk xAxisKernel (flatDisk 0) (uprightDisk 0) crossOps crossOps 1 = .val g := by
    obtain ⟨g1, g2, h1, h2, e⟩ := pair_cuts (ce1 := confusion) (ce2 := confusion) hpair
    unfold intersectDiskDisk
    rw [unit_charLength, e]
    have key : ∀ {R : V3 → Prop} {g : IsGeom}, LineCut xLine R g → R ⟨-1, 0, 0⟩ → R ⟨1, 0, 0⟩ →
        (∀ p, (Spec.OnLine xLine.supp xLine.dir p ∧ R p) ↔ Spec.OnSegment ⟨-1, 0, 0⟩ ⟨1, 0, 0⟩ p) →
        ∃ s : Segment, g = .segment s ∧ s.source ≠ s.target ∧
          ∀ p, (Spec.OnLine xLine.supp xLine.dir p ∧ R p) ↔ Spec.OnSegment s.source s.target p := by
      intro R g hg r1 r2 hR
      have l1 : Spec.OnLine xLine.supp xLine.dir ⟨-1, 0, 0⟩ := ⟨-1, by norm_num [xLine]⟩
      have l2 : Spec.OnLine xLine.supp xLine.dir ⟨1, 0, 0⟩ := ⟨1, by norm_num [xLine]⟩
      rcases hg with hh | ⟨x, hh⟩ | ⟨a, b, hab, hh⟩
      · exact absurd r1 (hh _ l1)
      · have e1 := (hh _).1 ⟨l1, r1⟩
        have e2 := (hh _).1 ⟨l2, r2⟩
        have := congrArg V3.x (e1.trans e2.symm)
        norm_num at this
      · exact ⟨⟨a, b⟩, rfl, hab, hh⟩
    obtain ⟨s1, rfl, n1, hs1⟩ := key h1
      ((flat_region_axis 0 ⟨-1, 0, 0⟩).2 (by norm_num)).2 ((flat_region_axis 0 ⟨1, 0, 0⟩).2 (by norm_num)).2
      (cross_iff (flat_region_axis 0))
    obtain ⟨s2, rfl, n2, hs2⟩ := key h2
      ((upright_region_axis 0 ⟨-1, 0, 0⟩).2 (by norm_num)).2
      ((upright_region_axis 0 ⟨1, 0, 0⟩).2 (by norm_num)).2 (cross_iff (upright_region_axis 0))
    obtain ⟨s, hs, _⟩ := C51_overlap_partial xAxisKernel s1 s2 1 n1 n2 (cut_collinear hs1 hs2) one_pos
      ⟨⟨1, 0, 0⟩, (hs1 _).1 (by rw [flat_region_axis]; norm_num),
        near_of_has one_pos ((hs2 _).1 (by rw [upright_region_axis]; norm_num))⟩
    refine ⟨.segment s, ?_⟩
    simp only [combineOnLine]
    rw [hs]; rfl
  obtain ⟨g, hg⟩ := hv
  refine ⟨g, hg, ?_⟩
  refine C50_disk_disk_partial xAxisKernel (flatDisk 0) (uprightDisk 0) crossOps crossOps 1 xLine g
    (flatDisk_valid 0) (uprightDisk_valid 0) (by simp [flatDisk]) (by simp [uprightDisk]) one_pos
    (by rw [unit_charLength]; norm_num) (xAxis_exactLine 0 0 1) ?_ ?_ hg
  · rw [unit_charLength]; exact c1
  · rw [unit_charLength]; exact c2

/-- The hypotheses of `C50_disk_disk_partial` hold for the two disks around the origin, and its
conclusion says that the common point `(1/2, 0, 0)` is on the resulting segment. -/
example : ∃ s, intersectDiskDisk xAxisKernel (flatDisk 0) (uprightDisk 0) crossOps crossOps 1
    = .val (.segment s) ∧ Segment.has s ⟨1 / 2, 0, 0⟩ ∧ Segment.has s ⟨-1, 0, 0⟩ := by
  obtain ⟨g, hg, _, h, _⟩ := cross_result
  have hc := h (by
    rintro ⟨c, hc, _⟩
    have e1 := (hc ⟨-1, 0, 0⟩).1 (by rw [flat_region_axis]; norm_num)
    have e2 := (hc ⟨1, 0, 0⟩).1 (by rw [flat_region_axis]; norm_num)
    have := congrArg V3.x (e1.trans e2.symm)
    norm_num at this)
  have m : ∀ x : ℝ, x ^ 2 ≤ 1 → g = .point ⟨x, 0, 0⟩ ∨ ∃ s, g = .segment s ∧ Segment.has s ⟨x, 0, 0⟩ :=
    fun x hx => hc ⟨x, 0, 0⟩ ((flat_region_axis 0 _).2 (by norm_num [hx])).2
      ((upright_region_axis 0 _).2 (by norm_num [hx])).2
  rcases m (1 / 2) (by norm_num) with h1 | ⟨s, h1, hs⟩
  · rcases m (-1) (by norm_num) with h2 | ⟨s', h2, _⟩
    · rw [h1] at h2; simp at h2; norm_num at h2
    · rw [h1] at h2; cases h2
  · rcases m (-1) (by norm_num) with h2 | ⟨s', h2, hs'⟩
    · rw [h1] at h2; cases h2
    · rw [h1] at h2
      cases h2
      exact ⟨s, by rw [hg, h1], hs, hs'⟩

/-- Parallel disks a distance of one apart satisfy the hypotheses of `C50_parallel_planes`. -/
example (K : Kernel) (ops : ShapeOps) :
    (intersectPlanarPlanar K (diskFace (flatDisk 0) ops)
      (diskFace ⟨⟨0, 0, 1⟩, ⟨1, 0, 0⟩, ⟨0, 1, 0⟩, ⟨0, 0, 1⟩, 1, 1⟩ ops) 1 confusion confusion (1 / 10)
      = .val .empty) := by
  have := C50_parallel_planes K (diskFace (flatDisk 0) ops)
    (diskFace ⟨⟨0, 0, 1⟩, ⟨1, 0, 0⟩, ⟨0, 1, 0⟩, ⟨0, 0, 1⟩, 1, 1⟩ ops)
    (fun p => p.z = 0) (fun p => p.z = 1) 1 confusion confusion (1 / 10)
    (by norm_num [diskFace, flatDisk, Elliptical.supportingPlane, Plane.ofBasis, Spec.IsUnit])
    (by norm_num) (.inl rfl)
    (fun p hp => by simp [Spec.OnPlane, diskFace, flatDisk, Elliptical.supportingPlane, Plane.ofBasis, hp])
    (fun p hp => by simp [Spec.OnPlane, diskFace, Elliptical.supportingPlane, Plane.ofBasis, hp])
  rcases this with h | h
  · exact h.1
  · have := h.2
    norm_num [Spec.inner, diskFace, flatDisk, Elliptical.supportingPlane, Plane.ofBasis] at this

end Props
