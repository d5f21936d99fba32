import Verif.Props.Orientation
import Verif.Model.Intersection.CylinderPlanar
import Verif.Model.Intersection.Angle

/-!
# Intersections do not depend on the orientation of the coordinate system (C121)
-/

namespace Props
open Verif Frackit
open Spec (IsRotation move)

variable (R : V3 → V3) (t : V3)

/-- Moved intersections. -/
def moveGeom : IsGeom → IsGeom
  | .empty => .empty
  | .point p => .point (move R t p)
  | .segment s => .segment (moveSegment R t s)
  | .arc a => .arc (moveArc R t a)
  | .ellipse e => .ellipse (moveElliptical R t e)
  | .edge k a b => .edge k (move R t a) (move R t b)
  | .polygon p => .polygon (movePolygon R t p)
  | .face k => .face k

/-- The algorithms of the geometry kernel in two coordinate systems: the results in the second one are the moved
results of the first one. -/
structure MovedKernel (K K' : Kernel) : Prop where
  planePlane : ∀ p q eps, K'.planePlane (movePlane R t p) (movePlane R t q) eps =
    (K.planePlane p q eps).map fun x => (move R t x.1, R x.2)
  planeLine : ∀ p l, K'.planeLine (movePlane R t p) (moveLine R t l) = (K.planeLine p l).map (move R t)
  fragmentEdges : ∀ s1 s2 tol, K'.fragmentEdges (moveSegment R t s1) (moveSegment R t s2) tol =
    (K.fragmentEdges s1 s2 tol).map (List.map (move R t))

/-- The boolean operations with the shape of a planar geometry in two coordinate systems. -/
structure MovedOps (O O' : ShapeOps) : Prop where
  commonEdges : ∀ s tol, O'.commonEdges (moveSegment R t s) tol = (O.commonEdges s tol).map (List.map (move R t))
  cutVertices : ∀ s tol, O'.cutVertices (moveSegment R t s) tol = (O.cutVertices s tol).map (move R t)

/-- What the algorithms use of a planar geometry in two coordinate systems. -/
structure MovedFace (F F' : FaceGeom) : Prop where
  plane : F'.plane = movePlane R t F.plane
  center : F'.center = move R t F.center
  contains : ∀ p eps, F'.contains (move R t p) eps = F.contains p eps
  commonEdges : ∀ s tol, F'.commonEdges (moveSegment R t s) tol = (F.commonEdges s tol).map (List.map (move R t))
  cutVertices : ∀ s tol, F'.cutVertices (moveSegment R t s) tol = (F.cutVertices s tol).map (move R t)

variable {R t} (H : IsRotation R)
include H

theorem gpAngle_rot (a b : V3) : gpAngle (R a) (R b) = gpAngle a b := by
  unfold gpAngle
  rw [rot_dot H, rot_len H, rot_len H]

theorem pointIsEqual_move (p q : V3) (eps : ℝ) : pointIsEqual (move R t p) (move R t q) eps ↔ pointIsEqual p q eps := by
  unfold pointIsEqual
  rw [move_sub H, rot_sqLen H]

theorem planePlane_move {K K' : Kernel} (hK : MovedKernel R t K K') (p q : Plane) (eps : ℝ) :
    intersectPlanePlane K' (movePlane R t p) (movePlane R t q) eps = (intersectPlanePlane K p q eps >>= fun r =>
      .val (match r with
        | .line l => .line (moveLine R t l)
        | .plane a => .plane (movePlane R t a)
        | .empty => .empty)) := by
  unfold intersectPlanePlane
  have h1 : gpIsParallel (movePlane R t p).normal (movePlane R t q).normal angular ↔
      gpIsParallel p.normal q.normal angular := by
    unfold gpIsParallel movePlane
    simp only [gpAngle_rot H]
  by_cases h : gpIsParallel p.normal q.normal angular
  · rw [if_pos h, if_pos (h1.2 h)]
    have h2 : (movePlane R t p).contains (movePlane R t q).supp eps ↔ p.contains q.supp eps :=
      (C120_plane (t := t) H p q.supp eps).2
    by_cases h' : p.contains q.supp eps
    · rw [if_pos h', if_pos (h2.2 h')]; rfl
    · rw [if_neg h', if_neg (fun a => h' (h2.1 a))]; rfl
  · rw [if_neg h, if_neg (fun a => h (h1.1 a)), hK.planePlane]
    cases K.planePlane p q eps with
    | none => rfl
    | some x =>
      obtain ⟨sp, dir⟩ := x
      simp only [Option.map_some, mkDirection_rot H]
      cases mkDirection dir <;> rfl

theorem planeLine_move {K K' : Kernel} (hK : MovedKernel R t K K') (p : Plane) (l : Line) (eps : ℝ) :
    intersectPlaneLine K' (movePlane R t p) (moveLine R t l) eps = (intersectPlaneLine K p l eps >>= fun r =>
      .val (match r with
        | .point a => .point (move R t a)
        | .line l => .line (moveLine R t l)
        | .empty => .empty)) := by
  unfold intersectPlaneLine
  have h1 : gpIsNormal (moveLine R t l).dir (movePlane R t p).normal angular ↔ gpIsNormal l.dir p.normal angular := by
    unfold gpIsNormal movePlane moveLine
    simp only [gpAngle_rot H]
  by_cases h : gpIsNormal l.dir p.normal angular
  · rw [if_neg (not_not.2 h), if_neg (not_not.2 (h1.2 h))]
    have h2 : (movePlane R t p).projection (moveLine R t l).supp - (moveLine R t l).supp =
        R (p.projection l.supp - l.supp) := by
      rw [← move_sub H t, ← (C120_plane (t := t) H p l.supp eps).1]
      rfl
    simp only [h2, rot_len H]
    by_cases h' : (p.projection l.supp - l.supp).len > eps
    · rw [if_pos h', if_pos h']; rfl
    · rw [if_neg h', if_neg h']; rfl
  · rw [if_pos h, if_pos (fun a => h (h1.1 a)), hK.planeLine]
    cases K.planeLine p l with
    | none => rfl
    | some x =>
      simp only [Option.map_some]
      have h2 := (C120_plane (t := t) H p x eps).2
      by_cases h' : p.contains x eps
      · rw [if_pos h', if_pos (h2.2 h')]; rfl
      · rw [if_neg h', if_neg (fun a => h' (h2.1 a))]; rfl

omit H in
theorem find?_move {P P' : V3 → Prop} [DecidablePred P] [DecidablePred P'] (l : List V3)
    (h : ∀ p, P' (move R t p) ↔ P p) :
    (l.map (move R t)).find? (fun p => decide (P' p)) = (l.find? fun p => decide (P p)).map (move R t) := by
  induction l with
  | nil => rfl
  | cons a r ih =>
    simp only [List.map_cons, List.find?_cons, h]
    by_cases ha : P a
    · simp only [ha, decide_true, Option.map_some]
    · simp only [ha, decide_false]
      exact ih

theorem parallelOverlap_move (s1 s2 : Segment) (l : Line) (eps : ℝ) :
    parallelOverlap (moveSegment R t s1) (moveSegment R t s2) (moveLine R t l) eps =
      (parallelOverlap s1 s2 l eps).map (moveGeom R t) := by
  have h0 : (moveLine R t l).contains (moveSegment R t s2).source eps ↔ l.contains s2.source eps :=
    (C120_line (t := t) H l s2.source eps).2
  have hc : ∀ (s : Segment) p, (moveSegment R t s).contains (move R t p) eps false ↔ s.contains p eps false :=
    fun s p => (C120_segment (t := t) H s p eps 0 false).2.2.1
  have ha : (moveSegment R t s1).contains (moveSegment R t s2).source eps false ↔ s1.contains s2.source eps false := hc _ _
  have hb : (moveSegment R t s1).contains (moveSegment R t s2).target eps false ↔ s1.contains s2.target eps false := hc _ _
  have hd : (moveSegment R t s2).contains (moveSegment R t s1).source eps false ↔ s2.contains s1.source eps false := hc _ _
  have he : (moveSegment R t s2).contains (moveSegment R t s1).target eps false ↔ s2.contains s1.target eps false := hc _ _
  unfold parallelOverlap
  dsimp only
  generalize (moveLine R t l).contains (moveSegment R t s2).source eps = A' at h0 ⊢
  generalize (moveSegment R t s1).contains (moveSegment R t s2).source eps false = B' at ha ⊢
  generalize (moveSegment R t s1).contains (moveSegment R t s2).target eps false = C' at hb ⊢
  generalize (moveSegment R t s2).contains (moveSegment R t s1).source eps false = D' at hd ⊢
  generalize (moveSegment R t s2).contains (moveSegment R t s1).target eps false = E' at he ⊢
  obtain rfl : A' = _ := propext h0
  obtain rfl : B' = _ := propext ha
  obtain rfl : C' = _ := propext hb
  obtain rfl : D' = _ := propext hd
  obtain rfl : E' = _ := propext he
  split_ifs <;> rfl

open Classical in
theorem fragment_move {K K' : Kernel} (hK : MovedKernel R t K K') (s1 s2 : Segment) (eps : ℝ) :
    fragmentIntersection K' (moveSegment R t s1) (moveSegment R t s2) eps =
      (fragmentIntersection K s1 s2 eps >>= fun g => .val (moveGeom R t g)) := by
  unfold fragmentIntersection
  dsimp only
  rw [hK.fragmentEdges]
  have hflat : ((K.fragmentEdges s1 s2 (0.1 * eps)).map (List.map (move R t))).flatten =
      (K.fragmentEdges s1 s2 (0.1 * eps)).flatten.map (move R t) := by
    rw [List.map_flatten]
  have hf := find?_move (R := R) (t := t) (P := fun p => s1.contains p eps ∧ s2.contains p eps)
    (P' := fun p => (moveSegment R t s1).contains p eps ∧ (moveSegment R t s2).contains p eps)
    (K.fragmentEdges s1 s2 (0.1 * eps)).flatten (by
      intro p
      exact and_congr (C120_segment (t := t) H _ p eps 0 true).2.2.1 (C120_segment (t := t) H _ p eps 0 true).2.2.1)
  rw [hflat, List.length_map, hf]
  by_cases hn : (K.fragmentEdges s1 s2 (0.1 * eps)).length = 3 ∨ (K.fragmentEdges s1 s2 (0.1 * eps)).length = 4
  · rw [if_pos hn, if_pos hn]
    cases (K.fragmentEdges s1 s2 (0.1 * eps)).flatten.find? fun p => decide (s1.contains p eps ∧ s2.contains p eps) <;>
      rfl
  · rw [if_neg hn, if_neg hn]
    have e1 : pointIsEqual (moveSegment R t s1).source (moveSegment R t s2).source eps ↔ _ := pointIsEqual_move H _ _ eps
    have e2 : pointIsEqual (moveSegment R t s1).source (moveSegment R t s2).target eps ↔ _ := pointIsEqual_move H _ _ eps
    have e3 : pointIsEqual (moveSegment R t s1).target (moveSegment R t s2).source eps ↔ _ := pointIsEqual_move H _ _ eps
    have e4 : pointIsEqual (moveSegment R t s1).target (moveSegment R t s2).target eps ↔ _ := pointIsEqual_move H _ _ eps
    simp only [e1, e2, e3, e4]
    split_ifs <;> rfl

/-- Two segments. -/
theorem C121_segment_segment {K K' : Kernel} (hK : MovedKernel R t K K') (s1 s2 : Segment) (eps : ℝ) :
    intersectSegmentSegment K' (moveSegment R t s1) (moveSegment R t s2) eps =
      (intersectSegmentSegment K s1 s2 eps >>= fun g => .val (moveGeom R t g)) := by
  unfold intersectSegmentSegment
  have e1 : (moveSegment R t s1).target - (moveSegment R t s1).source = R (s1.target - s1.source) := move_sub H t _ _
  have e2 : (moveSegment R t s2).target - (moveSegment R t s2).source = R (s2.target - s2.source) := move_sub H t _ _
  rw [e1, e2, mkDirection_rot H, mkDirection_rot H]
  cases mkDirection (s1.target - s1.source) with
  | val d1 =>
    cases mkDirection (s2.target - s2.source) with
    | val d2 =>
      simp only [Outcome.val_bind]
      have hp : gpIsParallel (R d1) (R d2) angular ↔ gpIsParallel d1 d2 angular := by
        unfold gpIsParallel
        rw [gpAngle_rot H]
      by_cases h : gpIsParallel d1 d2 angular
      · rw [if_pos h, if_pos (hp.2 h), supportingLine_move H]
        cases s1.supportingLine with
        | val l =>
          simp only [Outcome.val_bind, parallelOverlap_move H]
          cases parallelOverlap s1 s2 l eps with
          | some g => rfl
          | none => exact fragment_move H hK s1 s2 eps
        | _ => rfl
      · rw [if_neg h, if_neg (fun a => h (hp.1 a))]
        exact fragment_move H hK s1 s2 eps
    | _ => rfl
  | _ => rfl

theorem probing_move (F F' : FaceGeom) (hF : MovedFace R t F F') (l : Line) (c : ℝ) :
    probingSegment F'.center (moveLine R t l) c = moveSegment R t (probingSegment F.center l c) := by
  unfold probingSegment moveSegment
  rw [hF.center, (C120_line H l F.center 0).1]
  simp only [moveLine]
  generalize c * 20.0 = m
  congr 1
  · rw [move_add H, H.smul]
  · rw [sub_eq_add_neg, sub_eq_add_neg, move_add H, ← neg_smul, ← neg_smul, H.smul]

open Classical in
/-- A planar geometry and a line. -/
theorem planarLine_move {K K' : Kernel} (hK : MovedKernel R t K K') {F F' : FaceGeom} (hF : MovedFace R t F F')
    (l : Line) (c e1 eps : ℝ) :
    intersectPlanarLine K' F' (moveLine R t l) c e1 eps =
      (intersectPlanarLine K F l c e1 eps >>= fun g => .val (moveGeom R t g)) := by
  unfold intersectPlanarLine
  rw [hF.plane, planeLine_move H hK]
  cases intersectPlaneLine K F.plane l eps with
  | val r =>
    cases r with
    | empty => rfl
    | point p =>
      simp only [Outcome.val_bind, hF.contains]
      cases F.contains p e1 with
      | val b =>
        simp only [Outcome.val_bind]
        by_cases hb : b
        · rw [if_pos hb, if_pos hb]; rfl
        · rw [if_neg hb, if_neg hb]; rfl
      | _ => rfl
    | line l' =>
      simp only [Outcome.val_bind]
      rw [probing_move H F F' hF, hF.commonEdges, hF.cutVertices]
      have hcut : ∀ vs : List V3,
          (if (vs.map (move R t)).length = 2 then (pure .empty : Outcome IsGeom)
            else match (vs.map (move R t)).find? fun p =>
                decide (¬ pointIsEqual p (moveSegment R t (probingSegment F.center l c)).source eps ∧
                  ¬ pointIsEqual p (moveSegment R t (probingSegment F.center l c)).target eps) with
              | some p => pure (.point p)
              | none => .thrown "Unexpected code behaviour") =
          ((if vs.length = 2 then (pure .empty : Outcome IsGeom)
            else match vs.find? fun p => decide (¬ pointIsEqual p (probingSegment F.center l c).source eps ∧
                  ¬ pointIsEqual p (probingSegment F.center l c).target eps) with
              | some p => pure (.point p)
              | none => .thrown "Unexpected code behaviour") >>= fun g => .val (moveGeom R t g)) := by
        intro vs
        rw [List.length_map, find?_move (P := fun p => ¬ pointIsEqual p (probingSegment F.center l c).source eps ∧
                  ¬ pointIsEqual p (probingSegment F.center l c).target eps)
          (P' := fun p => ¬ pointIsEqual p (moveSegment R t (probingSegment F.center l c)).source eps ∧
                  ¬ pointIsEqual p (moveSegment R t (probingSegment F.center l c)).target eps) vs (by
            intro p
            exact and_congr (not_congr (pointIsEqual_move H _ _ _)) (not_congr (pointIsEqual_move H _ _ _)))]
        by_cases h2 : vs.length = 2
        · rw [if_pos h2, if_pos h2]; rfl
        · rw [if_neg h2, if_neg h2]
          cases vs.find? fun p => decide (¬ pointIsEqual p (probingSegment F.center l c).source eps ∧
                  ¬ pointIsEqual p (probingSegment F.center l c).target eps) <;> rfl
      generalize F.commonEdges (probingSegment F.center l c) (0.1 * eps) = E
      match E with
      | [] => exact hcut _
      | [vs] =>
        match vs with
        | [] => rfl
        | [v] => rfl
        | v0 :: v1 :: r => rfl
      | a :: b :: r => exact hcut _
  | _ => rfl

theorem combine_move {K K' : Kernel} (hK : MovedKernel R t K K') (a b : IsGeom) (eps : ℝ) :
    combineOnLine K' (moveGeom R t a) (moveGeom R t b) eps =
      (combineOnLine K a b eps >>= fun g => .val (moveGeom R t g)) := by
  have hc : ∀ s p, (moveSegment R t s).contains (move R t p) eps ↔ s.contains p eps :=
    fun s p => (C120_segment (t := t) H s p eps 0 true).2.2.1
  cases a <;> cases b <;> try rfl
  · rename_i p s
    simp only [moveGeom, combineOnLine]
    by_cases h : s.contains p eps
    · rw [if_pos h, if_pos ((hc _ _).2 h)]; rfl
    · rw [if_neg h, if_neg (fun x => h ((hc _ _).1 x))]; rfl
  · rename_i s p
    simp only [moveGeom, combineOnLine]
    by_cases h : s.contains p eps
    · rw [if_pos h, if_pos ((hc _ _).2 h)]; rfl
    · rw [if_neg h, if_neg (fun x => h ((hc _ _).1 x))]; rfl
  · rename_i s1 s2
    simp only [moveGeom, combineOnLine, C121_segment_segment H hK]
    cases intersectSegmentSegment K s1 s2 eps with
    | val g => cases g <;> rfl
    | _ => rfl

/-- Two planar geometries. -/
theorem C121_planar_planar {K K' : Kernel} (hK : MovedKernel R t K K') {F G F' G' : FaceGeom}
    (hF : MovedFace R t F F') (hG : MovedFace R t G G') (c e1 e2 eps : ℝ) :
    intersectPlanarPlanar K' F' G' c e1 e2 eps =
      (intersectPlanarPlanar K F G c e1 e2 eps >>= fun g => .val (moveGeom R t g)) := by
  unfold intersectPlanarPlanar
  rw [hF.plane, hG.plane, planePlane_move H hK]
  cases intersectPlanePlane K F.plane G.plane eps with
  | val r =>
    cases r with
    | empty => rfl
    | plane _ => rfl
    | line l =>
      simp only [Outcome.val_bind, planarLine_move H hK hF, planarLine_move H hK hG]
      cases intersectPlanarLine K F l c e1 eps with
      | val a =>
        cases intersectPlanarLine K G l c e2 eps with
        | val b => exact combine_move H hK a b eps
        | _ => rfl
      | _ => rfl
  | _ => rfl

/-! ## Disks, quadrilaterals and polygons -/

theorem diskFace_move (d : Elliptical) {O O' : ShapeOps} (hO : MovedOps R t O O') :
    MovedFace R t (diskFace d O) (diskFace (moveElliptical R t d) O') where
  plane := rfl
  center := rfl
  contains p eps := by
    show Outcome.val _ = Outcome.val _
    rw [(C120_elliptical H d p eps false).2.2.2.2.1]
  commonEdges := hO.commonEdges
  cutVertices := hO.cutVertices

/-- The moved quadrilateral, see `C121_quadrilateral_make`. -/
def moveQuad (R : V3 → V3) (t : V3) (q : Quadrilateral) : Quadrilateral where
  p0 := move R t q.p0
  p1 := move R t q.p1
  p2 := move R t q.p2
  p3 := move R t q.p3
  plane := q.plane >>= fun pl => .val (movePlane R t pl)
  center := q.center >>= fun c => .val (move R t c)
  area := q.area
  isConvex := q.isConvex

/-- Quadrilaterals made of moved corners are the moved quadrilaterals. -/
theorem C121_quadrilateral_make (p0 p1 p2 p3 : V3) :
    Quadrilateral.make (move R t p0) (move R t p1) (move R t p2) (move R t p3) =
      moveQuad R t (Quadrilateral.make p0 p1 p2 p3) := by
  obtain ⟨h1, h2, h3, -⟩ := C120_quadrilateral (t := t) H p0 p1 p2 p3 0 0 true
  have h4 : (Quadrilateral.make (move R t p0) (move R t p1) (move R t p2) (move R t p3)).plane =
      (moveQuad R t (Quadrilateral.make p0 p1 p2 p3)).plane := C120_plane_through_points H p0 p1 p2
  have e : ∀ q : Quadrilateral, q = ⟨q.p0, q.p1, q.p2, q.p3, q.plane, q.center, q.area, q.isConvex⟩ := fun _ => rfl
  rw [e (Quadrilateral.make (move R t p0) _ _ _), e (moveQuad R t _), h1, h2, h4, propext h3]
  rfl

theorem quadContains_move (q : Quadrilateral) (p : V3) (eps : ℝ) :
    (moveQuad R t q).contains (move R t p) eps false ↔ q.contains p eps false := by
  simp only [Quadrilateral.contains, moveQuad, area_move H, Bool.false_eq_true, false_imp_iff]

theorem quadFace_move (q : Quadrilateral) {O O' : ShapeOps} (hO : MovedOps R t O O') :
    (∃ F F', quadFace q O = .val F ∧ quadFace (moveQuad R t q) O' = .val F' ∧ MovedFace R t F F') ∨
    (quadFace q O = .nan ∧ quadFace (moveQuad R t q) O' = .nan) ∨
    (quadFace q O = .ub ∧ quadFace (moveQuad R t q) O' = .ub) ∨
    ∃ m, quadFace q O = .thrown m ∧ quadFace (moveQuad R t q) O' = .thrown m := by
  unfold quadFace
  simp only [show (moveQuad R t q).plane = q.plane >>= fun pl => .val (movePlane R t pl) from rfl,
    show (moveQuad R t q).center = q.center >>= fun c => .val (move R t c) from rfl]
  cases q.plane with
  | val pl =>
    cases q.center with
    | val c =>
      refine .inl ⟨_, _, rfl, rfl, rfl, rfl, ?_, hO.commonEdges, hO.cutVertices⟩
      intro p eps
      simp only [quadContains_move H]
    | thrown m => exact .inr (.inr (.inr ⟨m, rfl, rfl⟩))
    | nan => exact .inr (.inl ⟨rfl, rfl⟩)
    | ub => exact .inr (.inr (.inl ⟨rfl, rfl⟩))
  | thrown m => exact .inr (.inr (.inr ⟨m, rfl, rfl⟩))
  | nan => exact .inr (.inl ⟨rfl, rfl⟩)
  | ub => exact .inr (.inr (.inl ⟨rfl, rfl⟩))

/-- A value that is computed from a planar geometry in both coordinate systems. -/
theorem quadFace_bind (q : Quadrilateral) {O O' : ShapeOps} (hO : MovedOps R t O O') {α : Type}
    (f f' : FaceGeom → Outcome α) (m : α → α)
    (h : ∀ F F', MovedFace R t F F' → f' F' = (f F >>= fun g => .val (m g))) :
    (quadFace (moveQuad R t q) O' >>= f') = ((quadFace q O >>= f) >>= fun g => .val (m g)) := by
  rcases quadFace_move H q hO with ⟨F, F', h1, h2, h3⟩ | ⟨h1, h2⟩ | ⟨h1, h2⟩ | ⟨_, h1, h2⟩
  · rw [h1, h2]
    exact h F F' h3
  · rw [h1, h2]; rfl
  · rw [h1, h2]; rfl
  · rw [h1, h2]; rfl

theorem squaredLength_move (s : Segment) : (moveSegment R t s).squaredLength = s.squaredLength := by
  show (move R t s.target - move R t s.source).sqLen = _
  rw [move_sub H, rot_sqLen H]
  rfl

theorem quadFold_move (q : Quadrilateral) (c : ℝ) :
    (quadEdges (moveQuad R t q)).foldl (fun c e => max c e.squaredLength) c =
      (quadEdges q).foldl (fun c e => max c e.squaredLength) c := by
  have h : quadEdges (moveQuad R t q) = (quadEdges q).map (moveSegment R t) := rfl
  rw [h, List.foldl_map]
  simp only [squaredLength_move H]

/-- Disks and quadrilaterals among each other and with lines. -/
theorem C121_disk_quadrilateral {K K' : Kernel} (hK : MovedKernel R t K K') {O1 O1' O2 O2' : ShapeOps}
    (h1 : MovedOps R t O1 O1') (h2 : MovedOps R t O2 O2') (d1 d2 : Elliptical) (q1 q2 : Quadrilateral) (l : Line)
    (eps : ℝ) :
    intersectDiskLine K' (moveElliptical R t d1) O1' (moveLine R t l) eps =
      (intersectDiskLine K d1 O1 l eps >>= fun g => .val (moveGeom R t g)) ∧
    intersectQuadLine K' (moveQuad R t q1) O1' (moveLine R t l) eps =
      (intersectQuadLine K q1 O1 l eps >>= fun g => .val (moveGeom R t g)) ∧
    intersectDiskDisk K' (moveElliptical R t d1) (moveElliptical R t d2) O1' O2' eps =
      (intersectDiskDisk K d1 d2 O1 O2 eps >>= fun g => .val (moveGeom R t g)) ∧
    intersectQuadDisk K' (moveQuad R t q1) (moveElliptical R t d2) O1' O2' eps =
      (intersectQuadDisk K q1 d2 O1 O2 eps >>= fun g => .val (moveGeom R t g)) ∧
    intersectQuadQuad K' (moveQuad R t q1) (moveQuad R t q2) O1' O2' eps =
      (intersectQuadQuad K q1 q2 O1 O2 eps >>= fun g => .val (moveGeom R t g)) := by
  refine ⟨?_, ?_, ?_, ?_, ?_⟩
  · exact planarLine_move H hK (diskFace_move H d1 h1) l _ _ _
  · unfold intersectQuadLine
    apply quadFace_bind H q1 h1
    intro F F' hF
    have : quadLineCharLength (moveQuad R t q1) = quadLineCharLength q1 := by
      unfold quadLineCharLength
      have h : quadEdges (moveQuad R t q1) = (quadEdges q1).map (moveSegment R t) := rfl
      rw [h, List.foldl_map]
      simp only [fun s => (C120_segment (t := t) H s 0 0 0 true).1]
    rw [this]
    exact planarLine_move H hK hF l _ _ _
  · exact C121_planar_planar H hK (diskFace_move H d1 h1) (diskFace_move H d2 h2) _ _ _ _
  · unfold intersectQuadDisk
    apply quadFace_bind H q1 h1
    intro F F' hF
    have : quadDiskCharLength (moveQuad R t q1) (moveElliptical R t d2) = quadDiskCharLength q1 d2 := by
      unfold quadDiskCharLength
      rw [quadFold_move H]
      rfl
    rw [this]
    exact C121_planar_planar H hK hF (diskFace_move H d2 h2) _ _ _ _
  · unfold intersectQuadQuad
    by_cases hc : ¬ q1.isConvex ∨ ¬ q2.isConvex
    · rw [if_pos hc, if_pos (show ¬ (moveQuad R t q1).isConvex ∨ ¬ (moveQuad R t q2).isConvex from hc)]; rfl
    · rw [if_neg hc, if_neg (show ¬ (¬ (moveQuad R t q1).isConvex ∨ ¬ (moveQuad R t q2).isConvex) from hc)]
      apply quadFace_bind H q1 h1
      intro F F' hF
      apply quadFace_bind H q2 h2
      intro G G' hG
      have : quadQuadCharLength (moveQuad R t q1) (moveQuad R t q2) = quadQuadCharLength q1 q2 := by
        unfold quadQuadCharLength
        rw [quadFold_move H, quadFold_move H]
      rw [this]
      exact C121_planar_planar H hK hF hG _ _ _ _

theorem polygonFace_move (pg : Polygon) (h3 : 3 ≤ pg.corners.length) {O O' : ShapeOps} (hO : MovedOps R t O O') :
    (∃ F F', polygonFace pg O = .val F ∧ polygonFace (movePolygon R t pg) O' = .val F' ∧ MovedFace R t F F') ∨
    (polygonFace pg O = .nan ∧ polygonFace (movePolygon R t pg) O' = .nan) ∨
    (polygonFace pg O = .ub ∧ polygonFace (movePolygon R t pg) O' = .ub) ∨
    ∃ m, polygonFace pg O = .thrown m ∧ polygonFace (movePolygon R t pg) O' = .thrown m := by
  unfold polygonFace
  simp only [show (movePolygon R t pg).plane = pg.plane >>= fun pl => .val (movePlane R t pl) from rfl,
    show (movePolygon R t pg).center = pg.center >>= fun c => .val (move R t c) from rfl]
  cases pg.plane with
  | val pl =>
    cases pg.center with
    | val c =>
      refine .inl ⟨_, _, rfl, rfl, rfl, rfl, ?_, hO.commonEdges, hO.cutVertices⟩
      intro p eps
      show (movePolygon R t pg).contains (move R t p) eps false = pg.contains p eps false
      unfold Polygon.contains
      by_cases hc : pg.isConvex
      · rw [if_pos hc, if_pos (show (movePolygon R t pg).isConvex from hc)]
        simp only [Polygon.convexContains, movePolygon, subAreas_move H _ h3, Bool.false_eq_true, false_imp_iff]
      · rw [if_neg hc, if_neg (show ¬ (movePolygon R t pg).isConvex from hc)]
    | thrown m => exact .inr (.inr (.inr ⟨m, rfl, rfl⟩))
    | nan => exact .inr (.inl ⟨rfl, rfl⟩)
    | ub => exact .inr (.inr (.inl ⟨rfl, rfl⟩))
  | thrown m => exact .inr (.inr (.inr ⟨m, rfl, rfl⟩))
  | nan => exact .inr (.inl ⟨rfl, rfl⟩)
  | ub => exact .inr (.inr (.inl ⟨rfl, rfl⟩))

theorem polygonFace_bind (pg : Polygon) (h3 : 3 ≤ pg.corners.length) {O O' : ShapeOps} (hO : MovedOps R t O O')
    {α : Type} (f f' : FaceGeom → Outcome α) (m : α → α)
    (h : ∀ F F', MovedFace R t F F' → f' F' = (f F >>= fun g => .val (m g))) :
    (polygonFace (movePolygon R t pg) O' >>= f') = ((polygonFace pg O >>= f) >>= fun g => .val (m g)) := by
  rcases polygonFace_move H pg h3 hO with ⟨F, F', h1, h2, h3⟩ | ⟨h1, h2⟩ | ⟨h1, h2⟩ | ⟨_, h1, h2⟩
  · rw [h1, h2]
    exact h F F' h3
  · rw [h1, h2]; rfl
  · rw [h1, h2]; rfl
  · rw [h1, h2]; rfl

theorem cornerFold_move (cs : List V3) (c : V3) (f : ℝ → ℝ) (m : ℝ) :
    (cs.map (move R t)).foldl (fun a p => max a (f (⟨move R t c, p⟩ : Segment).squaredLength)) m =
      cs.foldl (fun a p => max a (f (⟨c, p⟩ : Segment).squaredLength)) m := by
  rw [List.foldl_map]
  have : ∀ p, (⟨move R t c, move R t p⟩ : Segment).squaredLength = (⟨c, p⟩ : Segment).squaredLength :=
    fun p => squaredLength_move H ⟨c, p⟩
  simp only [this]

/-- Polygons with disks and polygons. -/
theorem C121_polygon {K K' : Kernel} (hK : MovedKernel R t K K') {O1 O1' O2 O2' : ShapeOps}
    (h1 : MovedOps R t O1 O1') (h2 : MovedOps R t O2 O2') (d : Elliptical) (pg1 pg2 : Polygon)
    (hp1 : 3 ≤ pg1.corners.length) (hp2 : 3 ≤ pg2.corners.length) (eps : ℝ) :
    intersectPolygonDisk K' (movePolygon R t pg1) (moveElliptical R t d) O1' O2' eps =
      (intersectPolygonDisk K pg1 d O1 O2 eps >>= fun g => .val (moveGeom R t g)) ∧
    intersectPolygonPolygon K' (movePolygon R t pg1) (movePolygon R t pg2) O1' O2' eps =
      (intersectPolygonPolygon K pg1 pg2 O1 O2 eps >>= fun g => .val (moveGeom R t g)) := by
  constructor
  · unfold intersectPolygonDisk
    apply polygonFace_bind H pg1 hp1 h1
    intro F F' hF
    have : polygonDiskCharLength (movePolygon R t pg1).corners F'.center =
        polygonDiskCharLength pg1.corners F.center := by
      unfold polygonDiskCharLength
      rw [hF.center]
      exact congrArg _ (cornerFold_move H pg1.corners F.center id 0)
    rw [this]
    exact C121_planar_planar H hK hF (diskFace_move H d h2) _ _ _ _
  · unfold intersectPolygonPolygon
    by_cases hc : ¬ pg1.isConvex ∨ ¬ pg2.isConvex
    · rw [if_pos hc, if_pos (show ¬ (movePolygon R t pg1).isConvex ∨ ¬ (movePolygon R t pg2).isConvex from hc)]; rfl
    · rw [if_neg hc, if_neg (show ¬ (¬ (movePolygon R t pg1).isConvex ∨ ¬ (movePolygon R t pg2).isConvex) from hc)]
      apply polygonFace_bind H pg1 hp1 h1
      intro F F' hF
      apply polygonFace_bind H pg2 hp2 h2
      intro G G' hG
      have : polygonPolygonCharLength (movePolygon R t pg1).corners F'.center (movePolygon R t pg2).corners G'.center =
          polygonPolygonCharLength pg1.corners F.center pg2.corners G.center := by
        unfold polygonPolygonCharLength
        rw [hF.center, hG.center]
        simp only [movePolygon]
        rw [cornerFold_move H pg1.corners F.center (fun x => 2 * x),
          cornerFold_move H pg2.corners G.center (fun x => 2 * x)]
      rw [this]
      exact C121_planar_planar H hK hF hG _ _ _ _

/-! ## Cylinder surfaces and planar geometries -/

/-- Wires of the geometry kernel in two coordinate systems. -/
structure MovedWire (R : V3 → V3) (t : V3) (W W' : WireShape) : Prop where
  closed : W'.closed = W.closed
  first : W'.first = move R t W.first
  last : W'.last = move R t W.last
  distances : List.Forall₂ (fun d d' => ∀ p, d' (move R t p) = d p) W.edgeDistances W'.edgeDistances

/-- Boolean operations with a cylinder surface in two coordinate systems. -/
structure MovedCylOps (R : V3 → V3) (t : V3) (O O' : CylPlanarOps) : Prop where
  hasFaces : O'.hasContainedFaces = O.hasContainedFaces
  faceWires : List.Forall₂ (MovedWire R t) O.faceWires O'.faceWires
  cutVertices : O'.cutVertices = O.cutVertices.map (move R t)
  containedWires : List.Forall₂ (MovedWire R t) O.containedWires O'.containedWires

open Classical in
omit H in
theorem find_near {R : V3 → V3} {t : V3} {D D' : List (V3 → Option ℝ)}
    (h : List.Forall₂ (fun d d' => ∀ p, d' (move R t p) = d p) D D') (c1 c2 : V3) (eps : ℝ) :
    (D.find? (fun e => decide ((∃ d, e c1 = some d ∧ d < eps) ∨ ∃ d, e c2 = some d ∧ d < eps)) = none ∧
      D'.find? (fun e => decide ((∃ d, e (move R t c1) = some d ∧ d < eps) ∨
        ∃ d, e (move R t c2) = some d ∧ d < eps)) = none) ∨
    ∃ e e', (∀ p, e' (move R t p) = e p) ∧
      D.find? (fun e => decide ((∃ d, e c1 = some d ∧ d < eps) ∨ ∃ d, e c2 = some d ∧ d < eps)) = some e ∧
      D'.find? (fun e => decide ((∃ d, e (move R t c1) = some d ∧ d < eps) ∨
        ∃ d, e (move R t c2) = some d ∧ d < eps)) = some e' := by
  induction h with
  | nil => exact .inl ⟨rfl, rfl⟩
  | @cons d d' r r' hd hr ih =>
    simp only [List.find?_cons, hd]
    by_cases hc : (∃ x, d c1 = some x ∧ x < eps) ∨ ∃ x, d c2 = some x ∧ x < eps
    · simp only [hc, decide_true]
      exact .inr ⟨d, d', hd, rfl, rfl⟩
    · simp only [hc, decide_false]
      exact ih

open Classical in
theorem makeArc_move {W W' : WireShape} (hW : MovedWire R t W W') (e : Elliptical) (eps : ℝ) :
    makeArc W' (moveElliptical R t e) eps = (makeArc W e eps >>= fun a => .val (moveArc R t a)) := by
  unfold makeArc
  rw [hW.first, hW.last, (C120_arc H e W.first W.last).1, (C120_arc H e W.last W.first).1]
  cases EllipseArc.make e W.first W.last with
  | val a1 =>
    cases EllipseArc.make e W.last W.first with
    | val a2 =>
      simp only [Outcome.val_bind]
      have g : ∀ a : EllipseArc, (moveArc R t a).getPoint 0.5 = move R t (a.getPoint 0.5) :=
        fun a => ((C120_arc (t := t) H e 0 0).2 a 0 0 0.5 true).2.2
      rw [g, g]
      rcases find_near hW.distances (a1.getPoint 0.5) (a2.getPoint 0.5) eps with ⟨h1, h2⟩ | ⟨x, x', hx, h1, h2⟩
      · rw [h1, h2]; rfl
      · rw [h1, h2]
        simp only [hx]
        by_cases hn : ∃ d, x (a1.getPoint 0.5) = some d ∧ d < eps
        · rw [if_pos hn, if_pos hn]; rfl
        · rw [if_neg hn, if_neg hn]; rfl
    | _ => rfl
  | _ => rfl

theorem wireGeom_move {W W' : WireShape} (hW : MovedWire R t W W') (inf : Option Elliptical) (eps : ℝ) :
    wireGeom (inf.map (moveElliptical R t)) W' eps = (wireGeom inf W eps >>= fun g => .val (moveGeom R t g)) := by
  cases inf with
  | none =>
    simp only [wireGeom, Option.map_none, hW.first, hW.last]
    rfl
  | some e =>
    simp only [wireGeom, Option.map_some, makeArc_move H hW]
    cases makeArc W e eps <;> rfl

theorem infEllipse_move {K K' : Kernel} (hK : MovedKernel R t K K') {F F' : FaceGeom} (hF : MovedFace R t F F')
    (c : CylinderSurface) (m eps : ℝ) :
    infEllipse K' (moveSurface R t c) F' m eps =
      (infEllipse K c F m eps >>= fun o => .val (o.map (moveElliptical R t))) := by
  unfold infEllipse
  have hn : F'.plane.normal = R F.plane.normal := by rw [hF.plane]; rfl
  have ha : (moveSurface R t c).bottom.normal = R c.bottom.normal := rfl
  have hs : (moveSurface R t c).centerSegment = moveSegment R t c.centerSegment := rfl
  have h1 : gpIsNormal F'.plane.normal (moveSurface R t c).bottom.normal angular ↔
      gpIsNormal F.plane.normal c.bottom.normal angular := by
    rw [hn, ha]
    unfold gpIsNormal
    rw [gpAngle_rot H]
  have h2 : gpIsParallel F'.plane.normal (moveSurface R t c).bottom.normal angular ↔
      gpIsParallel F.plane.normal c.bottom.normal angular := by
    rw [hn, ha]
    unfold gpIsParallel
    rw [gpAngle_rot H]
  dsimp only
  by_cases hp : gpIsParallel F.plane.normal c.bottom.normal angular
  · rw [if_pos hp, if_pos (h2.2 hp), hF.plane]
    have e : (movePlane R t F.plane).projection (moveSurface R t c).centerSegment.source =
        move R t (F.plane.projection c.centerSegment.source) :=
      (C120_plane (t := t) H F.plane c.centerSegment.source 0).1
    rw [e]
    have e' := C120_elliptical_make (t := t) H (F.plane.projection c.centerSegment.source) c.bottom.major
      c.bottom.minor c.radius c.radius
    rw [show (moveSurface R t c).bottom.major = R c.bottom.major from rfl,
      show (moveSurface R t c).bottom.minor = R c.bottom.minor from rfl,
      show (moveSurface R t c).radius = c.radius from rfl, e']
    cases Elliptical.make (F.plane.projection c.centerSegment.source) c.bottom.major c.bottom.minor c.radius
      c.radius <;> rfl
  · rw [if_neg hp, if_neg (fun x => hp (h2.1 x))]
    by_cases hq : gpIsNormal F.plane.normal c.bottom.normal angular
    · rw [if_neg (not_not.2 hq), if_neg (not_not.2 (h1.2 hq))]; rfl
    · rw [if_pos hq, if_pos (fun x => hq (h1.1 x)), hs, supportingLine_move H]
      have e1 : F'.plane.projection (F'.center + m • (moveSurface R t c).bottom.normal) - F'.center =
          R (F.plane.projection (F.center + m • c.bottom.normal) - F.center) := by
        rw [ha, hF.plane, hF.center, ← H.smul, ← move_add H, (C120_plane (t := t) H F.plane _ 0).1, move_sub H]
      rw [e1, mkDirection_rot H]
      cases mkDirection (F.plane.projection (F.center + m • c.bottom.normal) - F.center) with
      | val a =>
        simp only [Outcome.val_bind, hn, rot_cross H, mkDirection_rot H]
        cases mkDirection (F.plane.normal.cross a) with
        | val b =>
          simp only [Outcome.val_bind]
          have hr : isRightHandSystem (R a) (R b) F'.plane.normal ↔ isRightHandSystem a b F.plane.normal := by
            unfold isRightHandSystem boxProduct
            rw [hn, rot_cross H, rot_dot H]
          have ea : (@ite V3 (isRightHandSystem (R a) (R b) F'.plane.normal) (Classical.propDecidable _) (R a)
              (invertDirection (R a))) = R (@ite V3 (isRightHandSystem a b F.plane.normal) (Classical.propDecidable _) a
                (invertDirection a)) := by
            by_cases h : isRightHandSystem a b F.plane.normal
            · rw [if_pos h, if_pos (hr.2 h)]
            · rw [if_neg h, if_neg (fun x => h (hr.1 x))]
              unfold invertDirection
              rw [H.smul]
          rw [ea]
          generalize (@ite V3 (isRightHandSystem a b F.plane.normal) (Classical.propDecidable _) a
            (invertDirection a)) = a'
          rw [ha, gpAngle_rot H, hF.plane, show (moveSurface R t c).radius = c.radius from rfl]
          cases c.centerSegment.supportingLine with
          | val l =>
            simp only [Outcome.val_bind, planeLine_move H hK]
            cases intersectPlaneLine K F.plane l eps with
            | val r =>
              cases r with
              | point x =>
                simp only [Outcome.val_bind]
                rw [C120_elliptical_make H]
                cases Elliptical.make x a' b |c.radius / Real.cos (gpAngle F.plane.normal c.bottom.normal)| c.radius <;>
                  rfl
              | line _ => rfl
              | empty => rfl
            | _ => rfl
          | _ => rfl
        | _ => rfl
      | _ => rfl

open Classical in
theorem touch_move (c : CylinderSurface) (eps : ℝ) (vs : List V3) :
    touchCandidates (moveSurface R t c) eps (vs.map (move R t)) = (touchCandidates c eps vs).map (move R t) := by
  unfold touchCandidates
  have hc : ∀ p, (moveSurface R t c).contains (move R t p) eps ↔ c.contains p eps :=
    fun p => (surface_key (t := t) H c (moveSurface R t c) rfl rfl rfl rfl p eps).1
  rw [List.foldl_map]
  suffices h : ∀ a : List V3, List.foldl (fun cands p => if (moveSurface R t c).contains (move R t p) eps then
      if ∃ tp ∈ cands, pointIsEqual tp (move R t p) eps then cands else cands ++ [move R t p] else cands)
        (a.map (move R t)) vs = (List.foldl (fun cands p => if c.contains p eps then
          if ∃ tp ∈ cands, pointIsEqual tp p eps then cands else cands ++ [p] else cands) a vs).map (move R t) from
    h []
  induction vs with
  | nil => intro a; rfl
  | cons p r ih =>
    intro a
    simp only [List.foldl_cons]
    rw [← ih]
    congr 1
    by_cases h1 : c.contains p eps
    · rw [if_pos h1, if_pos ((hc p).2 h1)]
      have he : (∃ tp ∈ a.map (move R t), pointIsEqual tp (move R t p) eps) ↔ ∃ tp ∈ a, pointIsEqual tp p eps := by
        simp only [List.mem_map, exists_exists_and_eq_and, pointIsEqual_move H]
      by_cases h2 : ∃ tp ∈ a, pointIsEqual tp p eps
      · rw [if_pos h2, if_pos (he.2 h2)]
      · rw [if_neg h2, if_neg (fun x => h2 (he.1 x)), List.map_append]
        rfl
    · rw [if_neg h1, if_neg (fun x => h1 ((hc p).1 x))]

theorem containedLoop_move (inf : Option Elliptical) (eps : ℝ) {ws ws' : List WireShape}
    (h : List.Forall₂ (MovedWire R t) ws ws') :
    containedLoop (inf.map (moveElliptical R t)) eps ws' = (containedLoop inf eps ws >>= fun r => .val (match r with
      | .inl e => .inl (moveElliptical R t e)
      | .inr gs => .inr (gs.map (moveGeom R t)))) := by
  induction h with
  | nil => rfl
  | @cons w w' r r' hw hr ih =>
    unfold containedLoop
    rw [hw.closed]
    by_cases hc : w.closed = true
    · rw [if_pos hc, if_pos hc]
      cases inf <;> rfl
    · rw [if_neg hc, if_neg hc, wireGeom_move H hw, ih]
      cases wireGeom inf w eps with
      | val g =>
        simp only [Outcome.val_bind]
        cases containedLoop inf eps r with
        | val x => cases x <;> rfl
        | _ => rfl
      | _ => rfl

theorem onSome_move (p : V3) (eps : ℝ) (gs : List IsGeom) :
    onSome (move R t p) eps (gs.map (moveGeom R t)) = onSome p eps gs := by
  induction gs with
  | nil => rfl
  | cons g r ih =>
    cases g with
    | segment s =>
      simp only [List.map_cons, moveGeom, onSome]
      have h := (C120_segment (t := t) H s p eps 0 true).2.2.1
      by_cases hc : s.contains p eps
      · rw [if_pos hc, if_pos (h.2 hc)]
      · rw [if_neg hc, if_neg (fun x => hc (h.1 x)), ih]
    | arc a =>
      simp only [List.map_cons, moveGeom, onSome]
      rw [((C120_arc (t := t) H a.ellipse 0 0).2 a p eps 0 true).1, ih]
    | _ => exact ih

theorem remaining_move (eps : ℝ) (gs : List IsGeom) (ps : List V3) :
    remainingPoints eps (gs.map (moveGeom R t)) (ps.map (move R t)) =
      (remainingPoints eps gs ps >>= fun l => .val (l.map (moveGeom R t))) := by
  induction ps with
  | nil => rfl
  | cons p r ih =>
    simp only [List.map_cons, remainingPoints]
    rw [onSome_move H, ih]
    cases onSome p eps gs with
    | val b =>
      cases remainingPoints eps gs r with
      | val l => cases b <;> rfl
      | _ => rfl
    | _ => rfl

theorem mapWires_move (inf : Option Elliptical) (eps : ℝ) {ws ws' : List WireShape}
    (h : List.Forall₂ (MovedWire R t) ws ws') :
    mapOutcome (fun w => wireGeom (inf.map (moveElliptical R t)) w eps) ws' =
      (mapOutcome (fun w => wireGeom inf w eps) ws >>= fun l => .val (l.map (moveGeom R t))) := by
  induction h with
  | nil => rfl
  | @cons w w' r r' hw hr ih =>
    unfold mapOutcome
    rw [wireGeom_move H hw, ih]
    cases wireGeom inf w eps with
    | val g =>
      cases mapOutcome (fun w => wireGeom inf w eps) r <;> rfl
    | _ => rfl

/-- A cylinder surface and a planar geometry. -/
theorem C121_cylinder_planar {K K' : Kernel} (hK : MovedKernel R t K K') {F F' : FaceGeom} (hF : MovedFace R t F F')
    {O O' : CylPlanarOps} (hO : MovedCylOps R t O O') (c : CylinderSurface) (m eps : ℝ) :
    intersectCylinderPlanar K' (moveSurface R t c) F' O' m eps =
      (intersectCylinderPlanar K c F O m eps >>= fun l => .val (l.map (moveGeom R t))) := by
  unfold intersectCylinderPlanar
  rw [infEllipse_move H hK hF, hO.cutVertices, touch_move H, hO.hasFaces]
  cases infEllipse K c F m eps with
  | val inf =>
    simp only [Outcome.val_bind]
    have hnil : O'.faceWires = [] ↔ O.faceWires = [] := by
      have hl := hO.faceWires.length_eq
      rw [← List.length_eq_zero_iff, ← List.length_eq_zero_iff, hl]
    by_cases h1 : O.hasContainedFaces = false ∧ O.faceWires ≠ []
    · rw [if_pos h1, if_pos ⟨h1.1, fun x => h1.2 (hnil.1 x)⟩]
      exact mapWires_move H inf eps hO.faceWires
    · rw [if_neg h1, if_neg (fun x => h1 ⟨x.1, fun y => x.2 (hnil.2 y)⟩)]
      by_cases h2 : O.hasContainedFaces = false
      · simp only [if_pos h2]
        by_cases h3 : touchCandidates c eps O.cutVertices = []
        · rw [if_pos h3, if_pos (by rw [h3]; rfl)]; rfl
        · rw [if_neg h3, if_neg (by simpa using h3)]
          simp only [Outcome.pure_eq, Outcome.val_bind, List.map_map]
          rfl
      · simp only [if_neg h2]
        rw [containedLoop_move H inf eps hO.containedWires]
        cases containedLoop inf eps O.containedWires with
        | val r =>
          cases r with
          | inl e => rfl
          | inr gs =>
            simp only [Outcome.val_bind]
            rw [remaining_move H]
            cases remainingPoints eps gs (touchCandidates c eps O.cutVertices) with
            | val ps =>
              simp only [Outcome.val_bind, Outcome.pure_eq]
              by_cases h4 : ps ++ gs = []
              · rw [if_pos h4, if_pos (by rw [← List.map_append, h4]; rfl)]; rfl
              · rw [if_neg h4, if_neg (by rw [← List.map_append]; simpa using h4), List.map_append]
            | _ => rfl
        | _ => rfl
  | _ => rfl

/-- Cylinder surfaces with disks, quadrilaterals and polygons. -/
theorem C121_cylinder {K K' : Kernel} (hK : MovedKernel R t K K') {S S' : ShapeOps} (hS : MovedOps R t S S')
    {O O' : CylPlanarOps} (hO : MovedCylOps R t O O') (c : CylinderSurface) (d : Elliptical) (q : Quadrilateral)
    (pg : Polygon) (hp : 3 ≤ pg.corners.length) (eps : ℝ) :
    intersectCylinderDisk K' (moveSurface R t c) (moveElliptical R t d) S' O' eps =
      (intersectCylinderDisk K c d S O eps >>= fun l => .val (l.map (moveGeom R t))) ∧
    intersectCylinderQuad K' (moveSurface R t c) (moveQuad R t q) S' O' eps =
      (intersectCylinderQuad K c q S O eps >>= fun l => .val (l.map (moveGeom R t))) ∧
    intersectCylinderPolygon K' (moveSurface R t c) (movePolygon R t pg) S' O' eps =
      (intersectCylinderPolygon K c pg S O eps >>= fun l => .val (l.map (moveGeom R t))) := by
  refine ⟨C121_cylinder_planar H hK (diskFace_move H d hS) hO c _ _, ?_, ?_⟩
  · unfold intersectCylinderQuad
    by_cases hc : ¬ q.isConvex
    · rw [if_pos hc, if_pos (show ¬ (moveQuad R t q).isConvex from hc)]; rfl
    · rw [if_neg hc, if_neg (show ¬ ¬ (moveQuad R t q).isConvex from hc)]
      apply quadFace_bind H q hS
      intro F F' hF
      have : cylQuadCharLength (moveQuad R t q) = cylQuadCharLength q := by
        unfold cylQuadCharLength
        rw [quadFold_move H]
      rw [this]
      exact C121_cylinder_planar H hK hF hO c _ _
  · unfold intersectCylinderPolygon
    by_cases hc : ¬ pg.isConvex
    · rw [if_pos hc, if_pos (show ¬ (movePolygon R t pg).isConvex from hc)]; rfl
    · rw [if_neg hc, if_neg (show ¬ ¬ (movePolygon R t pg).isConvex from hc)]
      apply polygonFace_bind H pg hp hS
      intro F F' hF
      have : cylPolygonCharLength (movePolygon R t pg).corners F'.center = cylPolygonCharLength pg.corners F.center := by
        unfold cylPolygonCharLength
        rw [hF.center]
        exact congrArg _ (cornerFold_move H pg.corners F.center (fun x => 2 * x) 0)
      rw [this]
      exact C121_cylinder_planar H hK hF hO c _ _

/-! ## Intersection angles -/

/-- Planar geometries and cylinder surfaces in the new coordinates; faces of the geometry kernel are not considered. -/
def moveAngleGeo (R : V3 → V3) (t : V3) : AngleGeo → AngleGeo
  | .planar pl => .planar (movePlane R t pl)
  | .cylSurface c => .cylSurface (moveSurface R t c)
  | .face s => .face s

theorem planarCylinderAngle_move (pl : Plane) (c : CylinderSurface) (g : IsGeom) :
    planarCylinderAngle (movePlane R t pl) (moveSurface R t c) (moveGeom R t g) = planarCylinderAngle pl c g := by
  have h : ∀ p, cylinderAngleAt (movePlane R t pl) (moveSurface R t c) (move R t p) = cylinderAngleAt pl c p :=
    fun p => (C120_angle H pl pl c p).2
  cases g with
  | point p => exact h p
  | segment s => exact h s.source
  | arc a =>
    simp only [moveGeom, planarCylinderAngle, ((C120_arc (t := t) H a.ellipse 0 0).2 a 0 0 _ true).2.2, h]
  | ellipse e =>
    simp only [moveGeom, planarCylinderAngle, (C120_ellipse_points (t := t) H e 0 _ 0 true).1, h]
  | _ => rfl

/-- The intersection angle computed from moved geometries and the moved intersection is the same, for planar
geometries and cylinder surfaces and all kinds of intersections, and for the minimum over several of them. -/
theorem C121_angle (curves curves' : ℕ → CurveGeom) (a b : AngleGeo) (ha : ∀ s, a ≠ .face s) (hb : ∀ s, b ≠ .face s)
    (g : IsGeom) (gs : List IsGeom) :
    intersectionAngle curves' (moveAngleGeo R t a) (moveAngleGeo R t b) (.single (moveGeom R t g)) =
      intersectionAngle curves a b (.single g) ∧
    intersectionAngle curves' (moveAngleGeo R t a) (moveAngleGeo R t b) (.list (gs.map (moveGeom R t))) =
      intersectionAngle curves a b (.list gs) := by
  have main : ∀ g, angleGeom curves' (moveAngleGeo R t a) (moveAngleGeo R t b) (moveGeom R t g) =
      angleGeom curves a b g := by
    intro g
    cases a with
    | face s => exact absurd rfl (ha s)
    | planar p1 =>
      cases b with
      | face s => exact absurd rfl (hb s)
      | planar p2 =>
        cases g with
        | point p => exact congrArg Outcome.val (by unfold planeAngle movePlane; simp only [rot_dot H])
        | segment p => exact congrArg Outcome.val (by unfold planeAngle movePlane; simp only [rot_dot H])
        | _ => rfl
      | cylSurface c =>
        have := planarCylinderAngle_move (t := t) H p1 c g
        cases g <;> exact this
    | cylSurface c =>
      cases b with
      | face s => exact absurd rfl (hb s)
      | planar p2 =>
        have := planarCylinderAngle_move (t := t) H p2 c g
        cases g <;> exact this
      | cylSurface c2 => cases g <;> rfl
  refine ⟨main g, ?_⟩
  simp only [intersectionAngle]
  unfold minAngle
  rw [List.foldl_map]
  simp only [main]

/-! ## The hypotheses can be met -/

theorem moveSegment_inj {a b : Segment} (h : moveSegment R t a = moveSegment R t b) : a = b := by
  have h1 := congrArg Segment.source h
  have h2 := congrArg Segment.target h
  exact Segment.ext (move_inj H h1) (move_inj H h2)

theorem movePlane_inj {a b : Plane} (h : movePlane R t a = movePlane R t b) : a = b :=
  Plane.ext (move_inj H (congrArg Plane.supp h)) (rot_inj H (congrArg Plane.base1 h))
    (rot_inj H (congrArg Plane.base2 h)) (rot_inj H (congrArg Plane.normal h))

theorem moveLine_inj {a b : Line} (h : moveLine R t a = moveLine R t b) : a = b := by
  obtain ⟨s, d⟩ := a
  obtain ⟨s', d'⟩ := b
  have h1 : s = s' := move_inj H (congrArg Line.supp h)
  have h2 : d = d' := rot_inj H (congrArg Line.dir h)
  rw [h1, h2]

open Classical in
/-- For every kernel and every motion there is a kernel that gives the moved results, so that the assumption on the
kernels is no restriction on the motion; the same holds for the boolean operations. -/
theorem C121_moved_kernel_exists (K : Kernel) (O : ShapeOps) : (∃ K', MovedKernel R t K K') ∧ ∃ O', MovedOps R t O O' := by
  constructor
  · refine ⟨⟨fun P Q eps => if h : ∃ x : Plane × Plane, P = movePlane R t x.1 ∧ Q = movePlane R t x.2 then
        (K.planePlane h.choose.1 h.choose.2 eps).map fun x => (move R t x.1, R x.2) else none,
      fun P L => if h : ∃ x : Plane × Line, P = movePlane R t x.1 ∧ L = moveLine R t x.2 then
        (K.planeLine h.choose.1 h.choose.2).map (move R t) else none,
      fun A B tol => if h : ∃ x : Segment × Segment, A = moveSegment R t x.1 ∧ B = moveSegment R t x.2 then
        (K.fragmentEdges h.choose.1 h.choose.2 tol).map (List.map (move R t)) else []⟩, ?_, ?_, ?_⟩
    · intro p q eps
      have h : ∃ x : Plane × Plane, movePlane R t p = movePlane R t x.1 ∧ movePlane R t q = movePlane R t x.2 :=
        ⟨(p, q), rfl, rfl⟩
      simp only
      rw [dif_pos h, ← movePlane_inj H h.choose_spec.1, ← movePlane_inj H h.choose_spec.2]
    · intro p l
      have h : ∃ x : Plane × Line, movePlane R t p = movePlane R t x.1 ∧ moveLine R t l = moveLine R t x.2 :=
        ⟨(p, l), rfl, rfl⟩
      simp only
      rw [dif_pos h, ← movePlane_inj H h.choose_spec.1, ← moveLine_inj H h.choose_spec.2]
    · intro a b tol
      have h : ∃ x : Segment × Segment, moveSegment R t a = moveSegment R t x.1 ∧
          moveSegment R t b = moveSegment R t x.2 := ⟨(a, b), rfl, rfl⟩
      simp only
      rw [dif_pos h, ← moveSegment_inj H h.choose_spec.1, ← moveSegment_inj H h.choose_spec.2]
  · refine ⟨⟨fun A tol => if h : ∃ x : Segment, A = moveSegment R t x then
        (O.commonEdges h.choose tol).map (List.map (move R t)) else [],
      fun A tol => if h : ∃ x : Segment, A = moveSegment R t x then
        (O.cutVertices h.choose tol).map (move R t) else []⟩, ?_, ?_⟩
    · intro s tol
      have h : ∃ x : Segment, moveSegment R t s = moveSegment R t x := ⟨s, rfl⟩
      simp only
      rw [dif_pos h, ← moveSegment_inj H h.choose_spec]
    · intro s tol
      have h : ∃ x : Segment, moveSegment R t s = moveSegment R t x := ⟨s, rfl⟩
      simp only
      rw [dif_pos h, ← moveSegment_inj H h.choose_spec]

omit H in
/-- Example: two segments that cross, in coordinates turned by 90 degrees about the z-axis. -/
example (K : Kernel) : ∃ K', ∀ eps, intersectSegmentSegment K'
    (moveSegment (fun v => rotate v ⟨0, 0, 1⟩ (Real.pi / 2)) 0 ⟨⟨-1, 0, 0⟩, ⟨1, 0, 0⟩⟩)
    (moveSegment (fun v => rotate v ⟨0, 0, 1⟩ (Real.pi / 2)) 0 ⟨⟨0, -1, 0⟩, ⟨0, 1, 0⟩⟩) eps =
      (intersectSegmentSegment K ⟨⟨-1, 0, 0⟩, ⟨1, 0, 0⟩⟩ ⟨⟨0, -1, 0⟩, ⟨0, 1, 0⟩⟩ eps >>= fun g =>
        .val (moveGeom (fun v => rotate v ⟨0, 0, 1⟩ (Real.pi / 2)) 0 g)) := by
  obtain ⟨K', hK⟩ := (C121_moved_kernel_exists (t := 0) quarter_isRotation K ⟨fun _ _ => [], fun _ _ => []⟩).1
  exact ⟨K', fun eps => C121_segment_segment quarter_isRotation hK _ _ eps⟩

end Props
