import Verif.Model.Intersection.CylinderPlanar
import Verif.Model.Intersection.FaceFace
import Verif.Props.CylinderPlane
import Verif.Props.Constraints

/-!
# C55 Empty intersections; C60 Intersection lists without duplicates; C52 for the whole algorithm
-/

namespace Props
open Verif Frackit

theorem mapOutcome_val {α β : Type} {f : α → Outcome β} : ∀ {l : List α} {r : List β},
    mapOutcome f l = .val r → r.length = l.length ∧ ∀ b ∈ r, ∃ a ∈ l, f a = .val b
  | [], r, h => by
      simp only [mapOutcome, Outcome.val.injEq] at h
      subst h; simp
  | a :: as, r, h => by
      simp only [mapOutcome] at h
      obtain ⟨b, hb, h⟩ := Outcome.bind_eq_val.1 h
      obtain ⟨bs, hbs, h⟩ := Outcome.bind_eq_val.1 h
      have hr : r = b :: bs := by simpa using h.symm
      subst hr
      obtain ⟨h1, h2⟩ := mapOutcome_val hbs
      refine ⟨by simp [h1], ?_⟩
      intro x hx
      rcases List.mem_cons.1 hx with rfl | hx
      · exact ⟨a, by simp, hb⟩
      · obtain ⟨y, hy, hy2⟩ := h2 x hx
        exact ⟨y, by simp [hy], hy2⟩

theorem containedLoop_val {inf : Option Elliptical} {eps : ℝ} : ∀ {ws : List WireShape}
    {r : Elliptical ⊕ List IsGeom}, containedLoop inf eps ws = .val r →
    (∃ e, inf = some e ∧ r = .inl e) ∨
      ∃ gs, r = .inr gs ∧ ∀ g ∈ gs, ∃ w, w.closed = false ∧ wireGeom inf w eps = .val g
  | [], r, h => by
      simp only [containedLoop, Outcome.val.injEq] at h
      subst h; right; exact ⟨[], rfl, by simp⟩
  | w :: ws, r, h => by
      simp only [containedLoop] at h
      by_cases hw : w.closed = true
      · rw [if_pos hw] at h
        cases inf with
        | none => simp at h
        | some e =>
          simp only [Outcome.val.injEq] at h
          left; exact ⟨e, rfl, h.symm⟩
      · rw [if_neg hw] at h
        obtain ⟨g, hg, h⟩ := Outcome.bind_eq_val.1 h
        obtain ⟨r', hr', h⟩ := Outcome.bind_eq_val.1 h
        rcases containedLoop_val hr' with ⟨e, he, hre⟩ | ⟨gs, hgs, hall⟩
        · subst hre
          left; exact ⟨e, he, by simpa using h.symm⟩
        · subst hgs
          right
          refine ⟨g :: gs, by simpa using h.symm, ?_⟩
          intro x hx
          rcases List.mem_cons.1 hx with rfl | hx
          · exact ⟨w, by simpa using hw, hg⟩
          · exact hall x hx

theorem remainingPoints_val {eps : ℝ} {found : List IsGeom} : ∀ {ps : List V3} {r : List IsGeom},
    remainingPoints eps found ps = .val r →
    ∃ qs : List V3, r = qs.map .point ∧ qs.Sublist ps ∧ ∀ q ∈ qs, onSome q eps found = .val false
  | [], r, h => by
      simp only [remainingPoints, Outcome.val.injEq] at h
      subst h; exact ⟨[], rfl, by simp, by simp⟩
  | p :: ps, r, h => by
      simp only [remainingPoints] at h
      obtain ⟨b, hb, h⟩ := Outcome.bind_eq_val.1 h
      obtain ⟨rest, hrest, h⟩ := Outcome.bind_eq_val.1 h
      obtain ⟨qs, hqs, hsub, hall⟩ := remainingPoints_val hrest
      cases b with
      | true =>
        have hr : r = rest := by simpa using h.symm
        exact ⟨qs, by rw [hr, hqs], hsub.cons p, hall⟩
      | false =>
        have hr : r = .point p :: rest := by simpa using h.symm
        refine ⟨p :: qs, by rw [hr, hqs]; rfl, hsub.cons_cons p, ?_⟩
        intro q hq
        rcases List.mem_cons.1 hq with rfl | hq
        · exact hb
        · exact hall q hq

/-- The possible shapes of the result of intersecting a cylinder surface with a planar geometry. -/
theorem cylPlanar_cases {K : Kernel} {c : CylinderSurface} {face : FaceGeom} {ops : CylPlanarOps}
    {L eps : ℝ} {gs : List IsGeom} (h : intersectCylinderPlanar K c face ops L eps = .val gs) :
    ∃ inf, infEllipse K c face L eps = .val inf ∧
      (gs = [.empty] ∨ (∃ e, inf = some e ∧ gs = [.ellipse e]) ∨
        ∃ (qs : List V3) (ws : List IsGeom), gs = qs.map .point ++ ws ∧ gs ≠ [] ∧
          qs.Sublist (touchCandidates c eps ops.cutVertices) ∧
          (∀ q ∈ qs, onSome q eps ws = .val false) ∧
          ∀ g ∈ ws, ∃ w, wireGeom inf w eps = .val g) := by
  unfold intersectCylinderPlanar at h
  obtain ⟨inf, hinf, h⟩ := Outcome.bind_eq_val.1 h
  refine ⟨inf, hinf, ?_⟩
  by_cases h1 : ops.hasContainedFaces = false ∧ ops.faceWires ≠ []
  · rw [if_pos h1] at h
    obtain ⟨hl, hall⟩ := mapOutcome_val h
    right; right
    refine ⟨[], gs, by simp, ?_, by simp, by simp, ?_⟩
    · intro e
      rw [e] at hl
      exact h1.2 (List.eq_nil_of_length_eq_zero (by simpa using hl.symm))
    · intro g hg
      obtain ⟨w, _, hw⟩ := hall g hg
      exact ⟨w, hw⟩
  · rw [if_neg h1] at h
    simp only at h
    by_cases h2 : ops.hasContainedFaces = false
    · rw [if_pos h2] at h
      by_cases h3 : touchCandidates c eps ops.cutVertices = []
      · rw [if_pos h3] at h
        left; simpa using h.symm
      · rw [if_neg h3] at h
        have hg : gs = (touchCandidates c eps ops.cutVertices).map .point := by simpa using h.symm
        right; right
        exact ⟨_, [], by rw [hg]; simp, by rw [hg]; simpa using h3, List.Sublist.refl _,
          fun q _ => rfl, by simp⟩
    · rw [if_neg h2] at h
      obtain ⟨r, hr, h⟩ := Outcome.bind_eq_val.1 h
      rcases containedLoop_val hr with ⟨e, he, hre⟩ | ⟨found, hf, hall⟩
      · subst hre
        right; left
        exact ⟨e, he, by simpa using h.symm⟩
      · subst hf
        simp only at h
        obtain ⟨points, hp, h⟩ := Outcome.bind_eq_val.1 h
        obtain ⟨qs, hqs, hsub, hon⟩ := remainingPoints_val hp
        by_cases h4 : points ++ found = []
        · rw [if_pos h4] at h
          left; simpa using h.symm
        · rw [if_neg h4] at h
          have hg : gs = points ++ found := by simpa using h.symm
          right; right
          exact ⟨qs, found, by rw [hg, hqs], by rw [hg]; exact h4, hsub, hon,
            fun g hg => let ⟨w, _, hw⟩ := hall g hg; ⟨w, hw⟩⟩

theorem ellipseArc_make_ellipse {e : Elliptical} {p q : V3} {a : EllipseArc}
    (h : EllipseArc.make e p q = .val a) : a.ellipse = e ∧ a.source = p ∧ a.target = q := by
  unfold EllipseArc.make at h
  simp only at h
  split_ifs at h
  · obtain ⟨sa, _, h⟩ := Outcome.bind_eq_val.1 h
    simp only [Outcome.pure_eq, Outcome.val.injEq] at h
    subst h; exact ⟨rfl, rfl, rfl⟩
  · obtain ⟨sa, _, h⟩ := Outcome.bind_eq_val.1 h
    obtain ⟨ta, _, h⟩ := Outcome.bind_eq_val.1 h
    simp only [Outcome.pure_eq, Outcome.val.injEq] at h
    subst h; exact ⟨rfl, rfl, rfl⟩

theorem makeArc_ellipse {w : WireShape} {e : Elliptical} {eps : ℝ} {a : EllipseArc}
    (h : makeArc w e eps = .val a) : a.ellipse = e ∧
      (a.source = w.first ∧ a.target = w.last ∨ a.source = w.last ∧ a.target = w.first) := by
  unfold makeArc at h
  obtain ⟨a1, h1, h⟩ := Outcome.bind_eq_val.1 h
  obtain ⟨a2, h2, h⟩ := Outcome.bind_eq_val.1 h
  obtain ⟨e1, s1, t1⟩ := ellipseArc_make_ellipse h1
  obtain ⟨e2, s2, t2⟩ := ellipseArc_make_ellipse h2
  simp only at h
  split at h
  · split_ifs at h
    · simp only [Outcome.pure_eq, Outcome.val.injEq] at h
      subst h; exact ⟨e1, .inl ⟨s1, t1⟩⟩
    · simp only [Outcome.pure_eq, Outcome.val.injEq] at h
      subst h; exact ⟨e2, .inr ⟨s2, t2⟩⟩
  · simp only [Outcome.pure_eq, Outcome.val.injEq] at h
    subst h; exact ⟨e2, .inr ⟨s2, t2⟩⟩

theorem wireGeom_cases {inf : Option Elliptical} {w : WireShape} {eps : ℝ} {g : IsGeom}
    (h : wireGeom inf w eps = .val g) :
    (∃ e a, inf = some e ∧ g = .arc a ∧ a.ellipse = e) ∨
      (inf = none ∧ g = .segment ⟨w.first, w.last⟩) := by
  cases inf with
  | none =>
    simp only [wireGeom, Outcome.val.injEq] at h
    right; exact ⟨rfl, h.symm⟩
  | some e =>
    simp only [wireGeom] at h
    obtain ⟨a, ha, h⟩ := Outcome.bind_eq_val.1 h
    left
    exact ⟨e, a, rfl, by simpa using h.symm, (makeArc_ellipse ha).1⟩

/-- Whatever the boolean operations return: for a plane inclined to the axis, or exactly orthogonal to
it, every ellipse and the ellipse of every arc in the result of intersecting a cylinder surface with a
planar geometry consists of exactly the common points of plane and infinite cylinder, and no segments
are returned. -/
theorem C52_results (K : Kernel) (c : CylinderSurface) (face : FaceGeom) (ops : CylPlanarOps)
    (charLength eps : ℝ) (gs : List IsGeom)
    (hc : ValidSurface c) (hf : FaceInPlane face) (hL : 0 < charLength) (he : 0 < eps)
    (hdir : (face.plane.normal = c.bottom.normal ∨ face.plane.normal = -c.bottom.normal) ∨
      ¬ gpIsParallel face.plane.normal c.bottom.normal angular ∧
      ¬ gpIsNormal face.plane.normal c.bottom.normal angular)
    (hK : ExactPlaneLine K face.plane ⟨c.bottom.center, c.bottom.normal⟩)
    (h : intersectCylinderPlanar K c face ops charLength eps = .val gs) :
    (∀ s, .segment s ∉ gs) ∧
    ∀ e, (.ellipse e ∈ gs ∨ ∃ a, .arc a ∈ gs ∧ a.ellipse = e) →
      ∀ p, Spec.OnEllipse e.center e.major e.minor e.majLen e.minLen p ↔
        Spec.OnPlane face.plane.supp face.plane.normal p ∧
        Spec.OnInfCylinder c.bottom.center c.bottom.normal c.radius p := by
  obtain ⟨e0, h0, _, hpts⟩ : ∃ e, infEllipse K c face charLength eps = .val (some e) ∧
      ValidElliptical e ∧ ∀ p, Spec.OnEllipse e.center e.major e.minor e.majLen e.minLen p ↔
        Spec.OnPlane face.plane.supp face.plane.normal p ∧
        Spec.OnInfCylinder c.bottom.center c.bottom.normal c.radius p := by
    rcases hdir with hd | ⟨hd1, hd2⟩
    · exact C52_orthogonal K c face charLength eps hc hd
    · exact C52_oblique K c face charLength eps hc hf hL he hd1 hd2 hK
  obtain ⟨inf, hinf, hcases⟩ := cylPlanar_cases h
  have hi : inf = some e0 := by rw [h0] at hinf; exact (Outcome.val.inj hinf).symm
  subst hi
  have key : ∀ g ∈ gs, g = .empty ∨ (∃ p, g = .point p) ∨ g = .ellipse e0 ∨
      ∃ a, g = .arc a ∧ a.ellipse = e0 := by
    intro g hg
    rcases hcases with hs | ⟨e, hee, hs⟩ | ⟨qs, ws, hs, _, _, _, hw⟩
    · rw [hs] at hg; left; simpa using hg
    · rw [hs] at hg
      have : e0 = e := Option.some.inj hee
      right; right; left; rw [this]; simpa using hg
    · rw [hs] at hg
      rcases List.mem_append.1 hg with hg | hg
      · obtain ⟨p, _, hp⟩ := List.mem_map.1 hg
        right; left; exact ⟨p, hp.symm⟩
      · obtain ⟨w, hw⟩ := hw g hg
        rcases wireGeom_cases hw with ⟨e, a, hee, hga, hae⟩ | ⟨hn, _⟩
        · right; right; right
          exact ⟨a, hga, by rw [hae]; exact (Option.some.inj hee).symm⟩
        · exact absurd hn (by simp)
  refine ⟨?_, ?_⟩
  · intro s hs
    rcases key _ hs with h | ⟨p, h⟩ | h | ⟨a, h, _⟩ <;> exact absurd h (by simp)
  · intro e hmem
    have : e = e0 := by
      rcases hmem with hm | ⟨a, hm, hae⟩
      · rcases key _ hm with h | ⟨p, h⟩ | h | ⟨a, h, _⟩
        · exact absurd h (by simp)
        · exact absurd h (by simp)
        · exact IsGeom.ellipse.inj h
        · exact absurd h (by simp)
      · rcases key _ hm with h | ⟨p, h⟩ | h | ⟨a', h, h'⟩
        · exact absurd h (by simp)
        · exact absurd h (by simp)
        · exact absurd h (by simp)
        · rw [IsGeom.arc.inj h] at hae; rw [← hae, h']
    rw [this]; exact hpts

/-! ## C55 -/

/-- `isEmptyIntersection` is true exactly if all parts are empty intersections. -/
theorem C55_recognised (r : IsResult) :
    isEmptyIntersection r = true ↔
      (match r with
        | .single g => g = .empty
        | .list gs => ∀ g ∈ gs, g = .empty) := by
  have hg : ∀ g : IsGeom, isEmptyGeom g = true ↔ g = .empty := by
    intro g; cases g <;> simp [isEmptyGeom]
  cases r with
  | single g => exact hg g
  | list gs => simp only [isEmptyIntersection, List.all_eq_true, hg]

example : isEmptyIntersection (.list [.empty, .point 0]) = false := rfl
example : isEmptyIntersection (.list [.empty, .empty]) = true := rfl

/-- A list as returned by the algorithms: a single empty intersection or non-empty geometries only, at
least one. -/
def WellFormedList (gs : List IsGeom) : Prop :=
  gs = [.empty] ∨ gs ≠ [] ∧ ∀ g ∈ gs, g ≠ .empty

theorem C55_cylinder_planar {K : Kernel} {c : CylinderSurface} {face : FaceGeom} {ops : CylPlanarOps}
    {L eps : ℝ} {gs : List IsGeom} (h : intersectCylinderPlanar K c face ops L eps = .val gs) :
    WellFormedList gs := by
  obtain ⟨inf, _, hs | ⟨e, _, hs⟩ | ⟨qs, ws, hs, hne, _, _, hw⟩⟩ := cylPlanar_cases h
  · exact .inl hs
  · right; rw [hs]; simp
  · right
    refine ⟨hne, ?_⟩
    intro g hg
    rw [hs] at hg
    rcases List.mem_append.1 hg with hg | hg
    · obtain ⟨p, _, hp⟩ := List.mem_map.1 hg
      rw [← hp]; simp
    · obtain ⟨w, hw⟩ := hw g hg
      rcases wireGeom_cases hw with ⟨e, a, _, hga, _⟩ | ⟨_, hga⟩ <;> rw [hga] <;> simp

theorem C55_face_face (ops : FaceFaceOps) (ends : ℕ → V3 × V3) (eps : ℝ) :
    WellFormedList (intersectFaceFace ops ends eps) := by
  unfold intersectFaceFace
  simp only
  split_ifs with h
  · exact .inl rfl
  · right
    refine ⟨fun e => h (by rw [e]; rfl), ?_⟩
    intro g hg
    simp only [List.mem_append, List.mem_map] at hg
    rcases hg with (⟨p, _, rfl⟩ | ⟨e, _, rfl⟩) | ⟨f, _, rfl⟩ <;> simp

/-- So the empty intersection is reported exactly by the list of one empty intersection. -/
theorem C55_wellFormed_empty {gs : List IsGeom} (h : WellFormedList gs) :
    isEmptyIntersection (.list gs) = true ↔ gs = [.empty] := by
  rw [C55_recognised]
  simp only
  constructor
  · intro hall
    rcases h with h | ⟨hne, hnon⟩
    · exact h
    · obtain ⟨g, hg⟩ := List.exists_mem_of_ne_nil gs hne
      exact absurd (hall g hg) (hnon g hg)
  · rintro rfl; simp

/-! ## C60 -/

theorem foldl_inv {α β : Type} (P : β → Prop) (f : β → α → β) : ∀ (l : List α) (b : β), P b →
    (∀ b, P b → ∀ a ∈ l, P (f b a)) → P (l.foldl f b)
  | [], _, hb, _ => hb
  | a :: as, b, hb, h => by
      rw [List.foldl_cons]
      exact foldl_inv P f as (f b a) (h b hb a (by simp)) (fun b hb x hx => h b hb x (by simp [hx]))

theorem far_of_not_isEqual {p q : V3} {eps : ℝ} (he : 0 ≤ eps) (h : ¬ pointIsEqual p q eps) :
    eps ≤ Spec.dist p q := by
  unfold pointIsEqual at h
  rw [Spec.dist_comm, Spec.dist_eq_len]
  push Not at h
  have h1 : 0 ≤ (q - p).len := V3.len_nonneg _
  rw [← V3.len_mul_self] at h
  nlinarith

theorem pairwise_append_singleton {α : Type} {R : α → α → Prop} {l : List α} {a : α}
    (hl : l.Pairwise R) (h : ∀ x ∈ l, R x a) : (l ++ [a]).Pairwise R := by
  rw [List.pairwise_append]
  exact ⟨hl, List.pairwise_singleton _ _, by simpa using h⟩

open Classical in
theorem touchCandidates_spec (c : CylinderSurface) (eps : ℝ) (vertices : List V3) :
    (touchCandidates c eps vertices).Pairwise (fun p q => ¬ pointIsEqual p q eps) ∧
    (∀ p ∈ touchCandidates c eps vertices, p ∈ vertices ∧ c.contains p eps) := by
  unfold touchCandidates
  apply foldl_inv (fun l : List V3 => l.Pairwise (fun p q => ¬ pointIsEqual p q eps) ∧
    ∀ p ∈ l, p ∈ vertices ∧ c.contains p eps)
  · simp
  · rintro l ⟨h1, h2⟩ p hp
    split_ifs with hc hd
    · exact ⟨h1, h2⟩
    · push Not at hd
      refine ⟨pairwise_append_singleton h1 hd, ?_⟩
      intro x hx
      rcases List.mem_append.1 hx with hx | hx
      · exact h2 x hx
      · rw [List.mem_singleton.1 hx]; exact ⟨hp, hc⟩
    · exact ⟨h1, h2⟩

/-- Every vertex that is on the cylinder surface is represented among the candidates. -/
theorem touchCandidates_complete (c : CylinderSurface) (eps : ℝ) (he : 0 < eps) (vertices : List V3) :
    ∀ p ∈ vertices, c.contains p eps →
      ∃ q ∈ touchCandidates c eps vertices, pointIsEqual q p eps := by
  classical
  unfold touchCandidates
  induction vertices using List.reverseRecOn with
  | nil => simp
  | append_singleton vs v ih =>
    intro p hp hc
    rw [List.foldl_append, List.foldl_cons, List.foldl_nil]
    set l := vs.foldl (fun cands p =>
      if c.contains p eps then
        if ∃ tp ∈ cands, pointIsEqual tp p eps then cands else cands ++ [p]
      else cands) [] with hl
    have hmono : ∀ q ∈ l, q ∈ (if c.contains v eps then
        if ∃ tp ∈ l, pointIsEqual tp v eps then l else l ++ [v] else l) := by
      intro q hq; split_ifs <;> simp [hq]
    rcases List.mem_append.1 hp with hp | hp
    · obtain ⟨q, hq, hqe⟩ := ih p hp hc
      exact ⟨q, hmono q hq, hqe⟩
    · rw [List.mem_singleton] at hp
      subst hp
      rw [if_pos hc]
      split_ifs with hd
      · exact hd
      · refine ⟨p, by simp, ?_⟩
        unfold pointIsEqual
        rw [sub_self]
        simp only [V3.sqLen, V3.zero_x, V3.zero_y, V3.zero_z]
        nlinarith [mul_pos he he]

/-- Being on one of the found segments or arcs. -/
theorem onSome_false {p : V3} {eps : ℝ} : ∀ {gs : List IsGeom}, onSome p eps gs = .val false →
    (∀ s, .segment s ∈ gs → ¬ s.contains p eps) ∧
    (∀ a, .arc a ∈ gs → ∃ P : Prop, a.contains p eps = .val P ∧ ¬ P)
  | [], _ => by simp
  | g :: gs, h => by
      cases g with
      | segment s =>
        simp only [onSome] at h
        by_cases hs : s.contains p eps
        · rw [if_pos hs] at h; simp at h
        rw [if_neg hs] at h
        obtain ⟨h1, h2⟩ := onSome_false h
        refine ⟨?_, ?_⟩
        · intro t ht
          rcases List.mem_cons.1 ht with ht | ht
          · rw [IsGeom.segment.inj ht]; exact hs
          · exact h1 t ht
        · intro a ha
          rcases List.mem_cons.1 ha with ha | ha
          · exact absurd ha (by simp)
          · exact h2 a ha
      | arc a =>
        simp only [onSome] at h
        obtain ⟨P, hP, h⟩ := Outcome.bind_eq_val.1 h
        by_cases hp : P
        · rw [if_pos hp] at h; simp at h
        · rw [if_neg hp] at h
          obtain ⟨h1, h2⟩ := onSome_false h
          refine ⟨?_, ?_⟩
          · intro t ht
            rcases List.mem_cons.1 ht with ht | ht
            · exact absurd ht (by simp)
            · exact h1 t ht
          · intro b hb
            rcases List.mem_cons.1 hb with hb | hb
            · rw [IsGeom.arc.inj hb]; exact ⟨P, hP, hp⟩
            · exact h2 b hb
      | empty | point _ | ellipse _ | edge _ _ _ | polygon _ | face _ =>
        simp only [onSome] at h
        obtain ⟨h1, h2⟩ := onSome_false h
        refine ⟨fun s hs => h1 s ?_, fun a ha => h2 a ?_⟩
        · rcases List.mem_cons.1 hs with hs | hs
          · exact absurd hs (by simp)
          · exact hs
        · rcases List.mem_cons.1 ha with ha | ha
          · exact absurd ha (by simp)
          · exact ha

/-- The points of a result list, in order. -/
def listPoints (gs : List IsGeom) : List V3 :=
  gs.filterMap fun g => match g with | .point p => some p | _ => none

theorem mem_listPoints {gs : List IsGeom} {p : V3} : p ∈ listPoints gs ↔ IsGeom.point p ∈ gs := by
  unfold listPoints
  rw [List.mem_filterMap]
  constructor
  · rintro ⟨g, hg, h⟩
    cases g <;> simp at h
    subst h; exact hg
  · intro h; exact ⟨_, h, rfl⟩

theorem listPoints_map (qs : List V3) (ws : List IsGeom) (hw : ∀ p, IsGeom.point p ∉ ws) :
    listPoints (qs.map .point ++ ws) = qs := by
  have h2 : listPoints ws = [] := by
    rw [List.eq_nil_iff_forall_not_mem]
    intro p hp; exact hw p (mem_listPoints.1 hp)
  have h1 : listPoints (qs.map .point) = qs := by
    unfold listPoints
    rw [List.filterMap_map]
    induction qs with
    | nil => rfl
    | cons a as ih => simp only [List.filterMap_cons, Function.comp]; exact congrArg _ ih
  unfold listPoints at h1 h2 ⊢
  rw [List.filterMap_append, h1, h2, List.append_nil]

/-- Touching points of a cylinder surface and a planar geometry: all of them are within the tolerance
of the cylinder surface, any two of them are at least the tolerance apart, and none of them is on a
segment or arc of the same result. -/
theorem C60_cylinder_planar {K : Kernel} {c : CylinderSurface} {face : FaceGeom} {ops : CylPlanarOps}
    {L eps : ℝ} {gs : List IsGeom} (he : 0 ≤ eps)
    (h : intersectCylinderPlanar K c face ops L eps = .val gs) :
    (listPoints gs).Pairwise (fun p q => eps ≤ Spec.dist p q) ∧
    ∀ p, .point p ∈ gs → p ∈ ops.cutVertices ∧ c.contains p eps ∧
      (∀ s, .segment s ∈ gs → ¬ s.contains p eps) ∧
      ∀ a, .arc a ∈ gs → ∃ P : Prop, a.contains p eps = .val P ∧ ¬ P := by
  obtain ⟨inf, _, hs | ⟨e, _, hs⟩ | ⟨qs, ws, hs, hne, hsub, hon, hw⟩⟩ := cylPlanar_cases h
  · rw [hs]; simp [listPoints]
  · rw [hs]; simp [listPoints]
  · have hnp : ∀ p, IsGeom.point p ∉ ws := by
      intro p hp
      obtain ⟨w, hw⟩ := hw _ hp
      rcases wireGeom_cases hw with ⟨e, a, _, hga, _⟩ | ⟨_, hga⟩ <;> exact absurd hga (by simp)
    obtain ⟨ht1, ht2⟩ := touchCandidates_spec c eps ops.cutVertices
    have hmem : ∀ g, g ∈ gs → (∀ p, g ≠ .point p) → g ∈ ws := by
      intro g hg hp
      rw [hs] at hg
      rcases List.mem_append.1 hg with hg | hg
      · obtain ⟨p, _, hpg⟩ := List.mem_map.1 hg
        exact absurd hpg.symm (hp p)
      · exact hg
    refine ⟨?_, ?_⟩
    · rw [hs, listPoints_map qs ws hnp]
      exact (ht1.sublist hsub).imp (fun hpq => far_of_not_isEqual he hpq)
    · intro p hp
      have hq : p ∈ qs := by
        rw [hs] at hp
        rcases List.mem_append.1 hp with hp | hp
        · obtain ⟨q, hq, hpq⟩ := List.mem_map.1 hp
          rw [← IsGeom.point.inj hpq]; exact hq
        · exact absurd hp (hnp p)
      obtain ⟨h1, h2⟩ := ht2 p (hsub.subset hq)
      obtain ⟨h3, h4⟩ := onSome_false (hon p hq)
      exact ⟨h1, h2, fun s hsm => h3 s (hmem _ hsm (by simp)), fun a ham => h4 a (hmem _ ham (by simp))⟩

theorem edgeIntersections_spec (ops : FaceFaceOps) :
    (edgeIntersections ops).Nodup ∧
    ∀ e, e ∈ edgeIntersections ops ↔
      e ∈ ops.edgesOnFace ∧ ∀ f ∈ ops.commonFaces, ops.edgeOnCommonFace e f = false := by
  unfold edgeIntersections
  suffices hgen : ∀ l : List ℕ, (l.foldl (fun found e =>
      if ops.commonFaces.any (ops.edgeOnCommonFace e) then found
      else if found.any (· = e) then found else found ++ [e]) []).Nodup ∧
      ∀ e, e ∈ l.foldl (fun found e =>
      if ops.commonFaces.any (ops.edgeOnCommonFace e) then found
      else if found.any (· = e) then found else found ++ [e]) [] ↔
      e ∈ l ∧ ∀ f ∈ ops.commonFaces, ops.edgeOnCommonFace e f = false from hgen _
  intro l
  induction l using List.reverseRecOn with
  | nil => simp
  | append_singleton l v ih =>
    obtain ⟨ih1, ih2⟩ := ih
    rw [List.foldl_append, List.foldl_cons, List.foldl_nil]
    set fd := l.foldl (fun found e =>
      if ops.commonFaces.any (ops.edgeOnCommonFace e) then found
      else if found.any (· = e) then found else found ++ [e]) [] with hfd
    by_cases hc : ops.commonFaces.any (ops.edgeOnCommonFace v) = true
    · rw [if_pos hc]
      refine ⟨ih1, fun e => ?_⟩
      rw [ih2 e, List.mem_append, List.mem_singleton]
      constructor
      · rintro ⟨h1, h2⟩; exact ⟨.inl h1, h2⟩
      · rintro ⟨h1 | h1, h2⟩
        · exact ⟨h1, h2⟩
        · subst h1
          obtain ⟨f, hf, hf2⟩ := List.any_eq_true.1 hc
          rw [h2 f hf] at hf2; exact absurd hf2 (by simp)
    · rw [if_neg hc]
      have hv : ∀ f ∈ ops.commonFaces, ops.edgeOnCommonFace v f = false := by
        intro f hf
        by_contra h
        exact hc (List.any_eq_true.2 ⟨f, hf, by simpa using h⟩)
      by_cases hd : fd.any (· = v) = true
      · rw [if_pos hd]
        obtain ⟨x, hx, hxv⟩ := List.any_eq_true.1 hd
        have hxv : x = v := by simpa using hxv
        subst hxv
        refine ⟨ih1, fun e => ?_⟩
        rw [ih2 e, List.mem_append, List.mem_singleton]
        constructor
        · rintro ⟨h1, h2⟩; exact ⟨.inl h1, h2⟩
        · rintro ⟨h1 | h1, h2⟩
          · exact ⟨h1, h2⟩
          · rw [h1]; exact (ih2 x).1 hx
      · rw [if_neg hd]
        have hnm : v ∉ fd := fun hm => hd (List.any_eq_true.2 ⟨v, hm, by simp⟩)
        refine ⟨?_, fun e => ?_⟩
        · rw [List.nodup_append]
          refine ⟨ih1, List.nodup_singleton v, ?_⟩
          intro a ha b hb
          rw [List.mem_singleton] at hb
          subst hb
          rintro rfl
          exact hnm ha
        · rw [List.mem_append, ih2 e, List.mem_append, List.mem_singleton]
          constructor
          · rintro (⟨h1, h2⟩ | rfl)
            · exact ⟨.inl h1, h2⟩
            · exact ⟨.inr rfl, hv⟩
          · rintro ⟨h1 | h1, h2⟩
            · exact .inl ⟨h1, h2⟩
            · exact .inr h1

theorem pointIntersections_spec (ops : FaceFaceOps) (eps : ℝ) :
    (pointIntersections ops eps).Pairwise (fun p q => ¬ pointIsEqual p q eps) ∧
    ∀ p ∈ pointIntersections ops eps, p ∈ faceCandidates ops ∧
      ∀ q ∈ curIsPoints ops, ¬ pointIsEqual q p eps := by
  classical
  unfold pointIntersections
  apply foldl_inv (fun l : List V3 => l.Pairwise (fun p q => ¬ pointIsEqual p q eps) ∧
    ∀ p ∈ l, p ∈ faceCandidates ops ∧ ∀ q ∈ curIsPoints ops, ¬ pointIsEqual q p eps)
  · simp
  · rintro l ⟨h1, h2⟩ p hp
    split_ifs with hd
    · obtain ⟨hd1, hd2⟩ := hd
      push Not at hd1 hd2
      refine ⟨pairwise_append_singleton h1 hd2, ?_⟩
      intro x hx
      rcases List.mem_append.1 hx with hx | hx
      · exact h2 x hx
      · rw [List.mem_singleton.1 hx]; exact ⟨hp, hd1⟩
    · exact ⟨h1, h2⟩

/-- Every candidate is represented by a reported point or by a vertex of a reported edge or face. -/
theorem pointIntersections_complete (ops : FaceFaceOps) (eps : ℝ) (he : 0 < eps) :
    ∀ p ∈ faceCandidates ops, ∃ q, (q ∈ curIsPoints ops ∨ q ∈ pointIntersections ops eps) ∧
      pointIsEqual q p eps := by
  classical
  unfold pointIntersections
  suffices hgen : ∀ l : List V3, ∀ p ∈ l, ∃ q, (q ∈ curIsPoints ops ∨ q ∈ l.foldl (fun found p =>
      if ¬ (∃ q ∈ curIsPoints ops, pointIsEqual q p eps) ∧ ¬ (∃ q ∈ found, pointIsEqual q p eps) then
        found ++ [p] else found) []) ∧ pointIsEqual q p eps from hgen _
  intro l
  induction l using List.reverseRecOn with
  | nil => simp
  | append_singleton vs v ih =>
    intro p hp
    rw [List.foldl_append, List.foldl_cons, List.foldl_nil]
    set fd := vs.foldl (fun found p =>
      if ¬ (∃ q ∈ curIsPoints ops, pointIsEqual q p eps) ∧ ¬ (∃ q ∈ found, pointIsEqual q p eps) then
        found ++ [p] else found) [] with hfd
    have hmono : ∀ q ∈ fd, q ∈ (if ¬ (∃ q ∈ curIsPoints ops, pointIsEqual q v eps) ∧
        ¬ (∃ q ∈ fd, pointIsEqual q v eps) then fd ++ [v] else fd) := by
      intro q hq; split_ifs <;> simp [hq]
    rcases List.mem_append.1 hp with hp | hp
    · obtain ⟨q, hq, hqe⟩ := ih p hp
      exact ⟨q, hq.imp_right (hmono q), hqe⟩
    · rw [List.mem_singleton] at hp
      subst hp
      split_ifs with hd
      · refine ⟨p, .inr (by simp), ?_⟩
        unfold pointIsEqual
        rw [sub_self]
        simp only [V3.sqLen, V3.zero_x, V3.zero_y, V3.zero_z]
        nlinarith [mul_pos he he]
      · rw [not_and_or, not_not, not_not] at hd
        rcases hd with ⟨q, hq, hqe⟩ | ⟨q, hq, hqe⟩
        · exact ⟨q, .inl hq, hqe⟩
        · exact ⟨q, .inr hq, hqe⟩

/-- The intersection of two faces of the geometry kernel: no edge is reported twice or together with a
common face it overlaps; touching points are at least the tolerance apart from each other and from the
vertices of all reported edges and faces, and lie on the other face. -/
theorem C60_face_face (ops : FaceFaceOps) (ends : ℕ → V3 × V3) (eps : ℝ) (he : 0 ≤ eps) :
    (listPoints (intersectFaceFace ops ends eps)).Pairwise (fun p q => eps ≤ Spec.dist p q) ∧
    (∀ p, .point p ∈ intersectFaceFace ops ends eps →
      (p ∈ ops.wireCut1 ∧ ops.onFace2 p = true ∨ p ∈ ops.wireCut2 ∧ ops.onFace1 p = true) ∧
      (∀ f, .face f ∈ intersectFaceFace ops ends eps → ∀ v ∈ ops.faceVertices f, eps ≤ Spec.dist v p) ∧
      ∀ e a b, .edge e a b ∈ intersectFaceFace ops ends eps →
        ∀ v ∈ ops.edgeVertices e, eps ≤ Spec.dist v p) ∧
    (∀ e a b, .edge e a b ∈ intersectFaceFace ops ends eps →
      e ∈ ops.edgesOnFace ∧
      (∀ f, .face f ∈ intersectFaceFace ops ends eps → ops.edgeOnCommonFace e f = false)) ∧
    ((intersectFaceFace ops ends eps).filterMap
      (fun g => match g with | .edge e _ _ => some e | _ => none)).Nodup ∧
    ((intersectFaceFace ops ends eps).filterMap
      (fun g => match g with | .face f => some f | _ => none)) = ops.commonFaces := by
  have hres : intersectFaceFace ops ends eps = [.empty] ∧ pointIntersections ops eps = [] ∧
      edgeIntersections ops = [] ∧ ops.commonFaces = [] ∨
      intersectFaceFace ops ends eps = (pointIntersections ops eps).map IsGeom.point
    ++ ((edgeIntersections ops).map (fun e => IsGeom.edge e (ends e).1 (ends e).2)
    ++ ops.commonFaces.map IsGeom.face) := by
    unfold intersectFaceFace
    simp only
    split_ifs with h
    · left
      rw [List.isEmpty_iff, List.append_eq_nil_iff, List.append_eq_nil_iff, List.map_eq_nil_iff,
        List.map_eq_nil_iff, List.map_eq_nil_iff] at h
      exact ⟨rfl, h.1.1, h.1.2, h.2⟩
    · right; rw [List.append_assoc]
  obtain ⟨hp1, hp2⟩ := pointIntersections_spec ops eps
  obtain ⟨he1, he2⟩ := edgeIntersections_spec ops
  rcases hres with ⟨hr, h0, h1, h2⟩ | hr
  · rw [hr]; simp [listPoints, h2]
  · have hmp : ∀ p, .point p ∈ intersectFaceFace ops ends eps → p ∈ pointIntersections ops eps := by
      intro p hp; rw [hr] at hp; simpa using hp
    have hmf : ∀ f, .face f ∈ intersectFaceFace ops ends eps → f ∈ ops.commonFaces := by
      intro p hp; rw [hr] at hp; simpa using hp
    have hme : ∀ e a b, .edge e a b ∈ intersectFaceFace ops ends eps → e ∈ edgeIntersections ops := by
      intro e a b hp
      rw [hr] at hp
      simp only [List.mem_append, List.mem_map, reduceCtorEq, and_false, exists_false, false_or,
        or_false, IsGeom.edge.injEq] at hp
      obtain ⟨x, hx, rfl, _⟩ := hp
      exact hx
    refine ⟨?_, ?_, ?_, ?_, ?_⟩
    · rw [hr, listPoints_map _ _ (by simp)]
      exact hp1.imp (fun h => far_of_not_isEqual he h)
    · intro p hp
      obtain ⟨hc, hq⟩ := hp2 p (hmp p hp)
      refine ⟨?_, ?_, ?_⟩
      · unfold faceCandidates at hc
        simpa only [List.mem_append, List.mem_filter] using hc
      · intro f hf v hv
        exact far_of_not_isEqual he (hq v (by
          unfold curIsPoints
          exact List.mem_append_left _ (List.mem_flatMap.2 ⟨f, hmf f hf, hv⟩)))
      · intro e a b hee v hv
        exact far_of_not_isEqual he (hq v (by
          unfold curIsPoints
          exact List.mem_append_right _ (List.mem_flatMap.2 ⟨e, hme e a b hee, hv⟩)))
    · intro e a b hee
      obtain ⟨h1, h2⟩ := (he2 e).1 (hme e a b hee)
      exact ⟨h1, fun f hf => h2 f (hmf f hf)⟩
    · rw [hr, List.filterMap_append, List.filterMap_append, List.filterMap_map, List.filterMap_map,
        List.filterMap_map]
      have : ((fun g : IsGeom => match g with | .edge e _ _ => some e | _ => none) ∘
        fun e => IsGeom.edge e (ends e).1 (ends e).2) = some := rfl
      rw [this, List.filterMap_some]
      simpa [Function.comp_def] using he1
    · rw [hr, List.filterMap_append, List.filterMap_append, List.filterMap_map, List.filterMap_map,
        List.filterMap_map]
      have : ((fun g : IsGeom => match g with | .face f => some f | _ => none) ∘ IsGeom.face) = some :=
        rfl
      rw [this, List.filterMap_some]
      simp [Function.comp_def]

/-- Nothing is lost: every candidate point and every edge on the other face is represented in the
result. -/
theorem C60_face_face_complete (ops : FaceFaceOps) (ends : ℕ → V3 × V3) (eps : ℝ) (he : 0 < eps) :
    (∀ p, p ∈ ops.wireCut1 ∧ ops.onFace2 p = true ∨ p ∈ ops.wireCut2 ∧ ops.onFace1 p = true →
      ∃ q, Spec.dist q p < eps ∧ (.point q ∈ intersectFaceFace ops ends eps ∨
        (∃ f, .face f ∈ intersectFaceFace ops ends eps ∧ q ∈ ops.faceVertices f) ∨
        ∃ e, .edge e (ends e).1 (ends e).2 ∈ intersectFaceFace ops ends eps ∧
          q ∈ ops.edgeVertices e)) ∧
    (∀ e ∈ ops.edgesOnFace, .edge e (ends e).1 (ends e).2 ∈ intersectFaceFace ops ends eps ∨
      ∃ f, .face f ∈ intersectFaceFace ops ends eps ∧ ops.edgeOnCommonFace e f = true) := by
  have hsub : ∀ g ∈ (pointIntersections ops eps).map IsGeom.point
    ++ (edgeIntersections ops).map (fun e => IsGeom.edge e (ends e).1 (ends e).2)
    ++ ops.commonFaces.map IsGeom.face, g ∈ intersectFaceFace ops ends eps := by
    intro g hg
    unfold intersectFaceFace
    simp only
    rw [if_neg]
    · exact hg
    · rw [List.isEmpty_iff]; exact List.ne_nil_of_mem hg
  obtain ⟨_, he2⟩ := edgeIntersections_spec ops
  refine ⟨?_, ?_⟩
  · intro p hp
    obtain ⟨q, hq, hqe⟩ := pointIntersections_complete ops eps he p (by
      unfold faceCandidates
      simpa only [List.mem_append, List.mem_filter] using hp)
    refine ⟨q, ?_, ?_⟩
    · unfold pointIsEqual at hqe
      rw [Spec.dist_comm, Spec.dist_eq_len]
      rw [← V3.len_mul_self] at hqe
      exact lt_of_mul_self_lt_mul_self₀ he.le hqe
    · rcases hq with hq | hq
      · unfold curIsPoints at hq
        rcases List.mem_append.1 hq with hq | hq
        · obtain ⟨f, hf, hfv⟩ := List.mem_flatMap.1 hq
          right; left; exact ⟨f, hsub _ (by simp [hf]), hfv⟩
        · obtain ⟨e, hf, hfv⟩ := List.mem_flatMap.1 hq
          right; right
          refine ⟨e, hsub _ ?_, hfv⟩
          exact List.mem_append_left _ (List.mem_append_right _ (List.mem_map.2 ⟨e, hf, rfl⟩))
      · left; exact hsub _ (by simp [hq])
  · intro e hee
    by_cases hx : ∃ f ∈ ops.commonFaces, ops.edgeOnCommonFace e f = true
    · obtain ⟨f, hf, hfe⟩ := hx
      right; exact ⟨f, hsub _ (by simp [hf]), hfe⟩
    · left
      push Not at hx
      have := (he2 e).2 ⟨hee, fun f hf => by simpa using hx f hf⟩
      exact hsub _ (List.mem_append_left _ (List.mem_append_right _ (List.mem_map.2 ⟨e, this, rfl⟩)))

/-- Two faces touching in an edge and a point off that edge. -/
example : intersectFaceFace ⟨[], [7, 7], fun _ _ => false, fun _ => [⟨0, 0, 0⟩, ⟨1, 0, 0⟩], fun _ => [],
    [⟨0, 0, 0⟩, ⟨0, 3, 0⟩, ⟨5, 5, 5⟩], [⟨0, 3, 0⟩], fun _ => true, fun p => decide (p.x < 2)⟩
    (fun _ => (⟨0, 0, 0⟩, ⟨1, 0, 0⟩)) 1
    = [.point ⟨0, 3, 0⟩, .edge 7 ⟨0, 0, 0⟩ ⟨1, 0, 0⟩] := by
  have he : edgeIntersections ⟨[], [7, 7], fun _ _ => false, fun _ => [⟨0, 0, 0⟩, ⟨1, 0, 0⟩],
    fun _ => [], [⟨0, 0, 0⟩, ⟨0, 3, 0⟩, ⟨5, 5, 5⟩], [⟨0, 3, 0⟩], fun _ => true,
    fun p => decide (p.x < 2)⟩ = [7] := by simp [edgeIntersections]
  have hp : pointIntersections ⟨[], [7, 7], fun _ _ => false, fun _ => [⟨0, 0, 0⟩, ⟨1, 0, 0⟩],
    fun _ => [], [⟨0, 0, 0⟩, ⟨0, 3, 0⟩, ⟨5, 5, 5⟩], [⟨0, 3, 0⟩], fun _ => true,
    fun p => decide (p.x < 2)⟩ 1 = [⟨0, 3, 0⟩] := by
    unfold pointIntersections curIsPoints
    rw [he]
    have h5 : ¬ ((5 : ℝ) < 2) := by norm_num
    simp [faceCandidates, pointIsEqual, V3.sqLen, h5]
    norm_num
  unfold intersectFaceFace
  rw [he, hp]
  simp

end Props
