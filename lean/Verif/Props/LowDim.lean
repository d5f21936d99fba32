import Verif.Model.Distance.NDim
import Verif.Props.PyDispatch

/-!
# Shapes and distances of points, lines and segments in one and two dimensions
-/

namespace Spec
open Verif

/-- The place of a point of lower dimension in space: the coordinates that are missing are zero. -/
noncomputable def inSpace {n : ℕ} (p : Fin n → ℝ) : V3 :=
  let c (i : ℕ) : ℝ := if h : i < n then p ⟨i, h⟩ else 0
  ⟨c 0, c 1, c 2⟩

end Spec

namespace Props
open Verif Frackit Lemmas

/-! ## C112 Points, lines and segments in one and two dimensions -/

/-- The points occupied by an argument. -/
def nPoints : NArg → Set V3
  | .point _ p => {Spec.inSpace p}
  | .segment _ s => {q | Spec.OnSegment (Spec.inSpace s.source) (Spec.inSpace s.target) q}
  | .line _ l => {q | Spec.OnLine (Spec.inSpace l.support) (Spec.inSpace l.dir) q}
  | .space a => argPoints a

/-- Valid arguments: the direction of a line has unit length. -/
def ValidN : NArg → Prop
  | .line _ l => Spec.IsUnit (Spec.inSpace l.dir)
  | .space a => ValidArg a
  | _ => True

/-- A point and a segment of the same dimension, in any order. -/
def PointSegmentN : NArg → NArg → Prop
  | .point d _, .segment e _ => d = e
  | .segment d _, .point e _ => d = e
  | .space a, .space b => PointSegment a b
  | _, _ => False

theorem occPoint_eq (d : LowDim) (p : Coords (d + 1)) : occPoint d p = Spec.inSpace p := by
  match d, p with
  | 0, p => simp [occPoint, Spec.inSpace]
  | 1, p => simp [occPoint, Spec.inSpace]

section
variable (d : LowDim)

theorem inSpace_between (p q : Coords (d + 1)) :
    Spec.inSpace (vectorBetween p q) = Spec.inSpace q - Spec.inSpace p := by
  match d, p, q with
  | 0, p, q => ext <;> simp [Spec.inSpace, vectorBetween]
  | 1, p, q => ext <;> simp [Spec.inSpace, vectorBetween]

theorem inSpace_dot (p q : Coords (d + 1)) : p.scalarProduct q = (Spec.inSpace p).dot (Spec.inSpace q) := by
  match d, p, q with
  | 0, p, q => simp [Spec.inSpace, Coords.scalarProduct, V3.dot]
  | 1, p, q => simp [Spec.inSpace, Coords.scalarProduct, V3.dot, Fin.sum_univ_succ]

theorem inSpace_sqLen (p : Coords (d + 1)) : p.squaredLength = (Spec.inSpace p).sqLen := by
  match d, p with
  | 0, p => simp [Spec.inSpace, Coords.squaredLength, V3.sqLen]
  | 1, p => simp [Spec.inSpace, Coords.squaredLength, V3.sqLen, Fin.sum_univ_succ]

theorem inSpace_len (p : Coords (d + 1)) : p.length = (Spec.inSpace p).len := by
  unfold Coords.length V3.len
  rw [inSpace_sqLen]

theorem inSpace_move (p v : Coords (d + 1)) (t : ℝ) :
    Spec.inSpace (p.moveForward (v.scale t)) = Spec.inSpace p + t • Spec.inSpace v := by
  match d, p, v with
  | 0, p, v => ext <;> simp [Spec.inSpace, Coords.moveForward, Coords.scale, mul_comm]
  | 1, p, v => ext <;> simp [Spec.inSpace, Coords.moveForward, Coords.scale, mul_comm]

/-- The line in space. -/
noncomputable def lineInSpace (l : LineN (d + 1)) : Line := ⟨Spec.inSpace l.support, Spec.inSpace l.dir⟩

/-- The segment in space. -/
noncomputable def segmentInSpace (s : SegmentN (d + 1)) : Segment := ⟨Spec.inSpace s.source, Spec.inSpace s.target⟩

theorem inSpace_projection (l : LineN (d + 1)) (p : Coords (d + 1)) :
    Spec.inSpace (l.projection p) = (lineInSpace d l).projection (Spec.inSpace p) := by
  unfold LineN.projection Line.projection
  rw [inSpace_move, inSpace_dot, inSpace_between]
  rfl

theorem inSpace_supportingLine (s : SegmentN (d + 1)) :
    (∃ l, s.supportingLine = .val l ∧ (segmentInSpace d s).supportingLine = .val (lineInSpace d l)) ∨
    (s.supportingLine = .nan ∧ (segmentInSpace d s).supportingLine = .nan) := by
  unfold SegmentN.supportingLine Segment.supportingLine SegmentN.direction Segment.direction directionOf mkDirection
    Coords.divide
  have hl := inSpace_len d (vectorBetween s.source s.target)
  rw [inSpace_between] at hl
  have e : (segmentInSpace d s).target - (segmentInSpace d s).source
      = Spec.inSpace s.target - Spec.inSpace s.source := rfl
  rw [e, hl]
  by_cases h : (Spec.inSpace s.target - Spec.inSpace s.source).len = 0
  · right
    rw [if_pos h, if_pos h]
    exact ⟨rfl, rfl⟩
  · left
    rw [if_neg h, if_neg h]
    refine ⟨_, rfl, ?_⟩
    show Outcome.val _ = Outcome.val _
    congr 1
    unfold lineInSpace segmentInSpace
    simp only
    congr 1
    rw [← inSpace_between]
    generalize (Spec.inSpace (vectorBetween s.source s.target)).len = r
    generalize vectorBetween s.source s.target = v
    match d, v with
    | 0, v => ext <;> simp [Spec.inSpace, V3.sdiv]
    | 1, v => ext <;> simp [Spec.inSpace, V3.sdiv]

theorem inSpace_contains (s : SegmentN (d + 1)) (p : Coords (d + 1)) :
    s.containsDefault p ↔ (segmentInSpace d s).containsDefault (Spec.inSpace p) := by
  unfold SegmentN.containsDefault Segment.containsDefault SegmentN.contains Segment.contains
  have hl : s.length = (segmentInSpace d s).length := by
    unfold SegmentN.length Segment.length
    rw [inSpace_len, inSpace_between]; rfl
  rcases inSpace_supportingLine d s with ⟨l, h1, h2⟩ | ⟨h1, h2⟩
  · rw [h1, h2]
    simp only [LineN.contains, Line.contains, inSpace_sqLen, inSpace_between, inSpace_dot, inSpace_projection, hl]
    rfl
  · rw [h1, h2]
    simp

theorem inSpace_distPointSegment (p : Coords (d + 1)) (s : SegmentN (d + 1)) :
    distPointSegmentN p s = distPointSegment (Spec.inSpace p) (segmentInSpace d s) := by
  unfold distPointSegmentN distPointSegment
  rcases inSpace_supportingLine d s with ⟨l, h1, h2⟩ | ⟨h1, h2⟩
  · rw [h1, h2]
    simp only [inSpace_len, inSpace_between, inSpace_projection]
    rw [← inSpace_projection]
    by_cases hc : s.containsDefault (l.projection p)
    · rw [if_pos hc, if_pos ((inSpace_contains d s _).1 hc)]
    · rw [if_neg hc, if_neg fun h => hc ((inSpace_contains d s _).2 h)]
      rfl
  · rw [h1, h2]
    simp only [inSpace_len, inSpace_between]
    rfl

theorem inSpace_distPointLine (p : Coords (d + 1)) (l : LineN (d + 1)) :
    distPointLineN p l = distPointLine (Spec.inSpace p) (lineInSpace d l) := by
  unfold distPointLineN distPointLine
  rw [inSpace_len, inSpace_between, inSpace_projection]

theorem inSpace_distPointPoint (p q : Coords (d + 1)) :
    distPointPointN p q = distPointPoint (Spec.inSpace p) (Spec.inSpace q) := by
  unfold distPointPointN distPointPoint
  rw [inSpace_len, inSpace_between]

end

/-- The shape of a point or segment occupies its points, seen as points in space. -/
theorem C112_shape (K : ShapeKernel) (hK : Faithful K) (a : NArg) (ha : ValidN a) (s : Shape)
    (h : getShapeN K a = .val s ∨ ((∀ x, a ≠ .space x) ∧ pyGetShapeN K a = .val s)) : s.points = nPoints a := by
  have done : ∀ {α : Type} {msg : String} {o : Option α} {a : α}, doneOr msg o = .val a → o = some a := by
    intro α msg o a ho
    cases o with
    | none => cases ho
    | some b => cases ho; rfl
  have py : ∀ x : NArg, (∀ y, x ≠ .space y) → pyGetShapeN K x = .val s → getShapeN K x = .val s := by
    intro x hx hp
    cases x with
    | point d p => fin_cases d <;> exact hp
    | segment d p => fin_cases d <;> exact hp
    | line d p => fin_cases d <;> cases hp
    | space y => exact absurd rfl (hx y)
  have h : getShapeN K a = .val s := h.elim id fun h => py a h.1 h.2
  cases a with
  | point d p =>
    rw [(hK.vertex _ _ (done h)).2, occPoint_eq]; rfl
  | segment d p =>
    rw [(hK.edge _ _ _ (done h)).2, occPoint_eq, occPoint_eq]; rfl
  | line d l => cases h
  | space x => exact shape_points hK ha h

/-- The distance between points, lines, segments and any other geometries, of the same or of different dimension, is the
distance between the sets of points in space.  For a point and a segment of the same dimension see
`C112_point_segment`. -/
theorem C112_distance (K : ShapeKernel) (hK : Faithful K) (a b : NArg) (ha : ValidN a) (hb : ValidN b)
    (hps : ¬ PointSegmentN a b) (r : ℝ) (h : computeDistanceN K a b = .val r) :
    Spec.SetDist (nPoints a) (nPoints b) r := by
  have viaShapes : shapeDistanceN K a b = .val r → Spec.SetDist (nPoints a) (nPoints b) r := by
    intro h
    obtain ⟨s, hs, h⟩ := Outcome.bind_eq_val.1 h
    obtain ⟨t, ht, h⟩ := Outcome.bind_eq_val.1 h
    rw [← C112_shape K hK a ha s (.inl hs), ← C112_shape K hK b hb t (.inl ht)]
    exact shape_distance hK h
  have closed : ∀ x y : DistArg, ValidArg x → ValidArg y → ¬ PointSegment x y → argPoints x = nPoints a →
      argPoints y = nPoints b → computeDistance K x y = .val r → Spec.SetDist (nPoints a) (nPoints b) r := by
    intro x y hx hy hn ex ey hc
    rw [← ex, ← ey]
    exact C73_distance K hK x y hx hy hn r hc
  unfold computeDistanceN at h
  split at h
  · rename_i d p e q
    split_ifs at h with he
    · subst he
      refine closed (.geom (.point (Spec.inSpace p))) (.geom (.point (Spec.inSpace q))) trivial trivial id rfl rfl ?_
      rw [← h]
      exact congrArg Outcome.val (inSpace_distPointPoint _ p q).symm
    · exact viaShapes h
  · rename_i d p e l
    split_ifs at h with he
    · subst he
      refine closed (.geom (.point (Spec.inSpace p))) (.line (lineInSpace _ l)) trivial hb id rfl rfl ?_
      rw [← h]
      exact congrArg Outcome.val (inSpace_distPointLine _ p l).symm
    · exact viaShapes h
  · rename_i d l e p
    split_ifs at h with he
    · subst he
      refine closed (.line (lineInSpace _ l)) (.geom (.point (Spec.inSpace p))) ha trivial id rfl rfl ?_
      rw [← h]
      exact congrArg Outcome.val (inSpace_distPointLine _ p l).symm
    · exact viaShapes h
  · rename_i d p e s
    split_ifs at h with he
    · exact absurd he.symm hps
    · exact viaShapes h
  · rename_i d s e p
    split_ifs at h with he
    · exact absurd he.symm hps
    · exact viaShapes h
  · exact C73_distance K hK _ _ ha hb hps r h
  · exact viaShapes h

/-- The distance between a point and a segment of the same dimension is a lower bound of the distances to all points
of the segment, and differs from the smallest one by at most `1e-7` times the length of the segment. -/
theorem C112_point_segment (K : ShapeKernel) (d : LowDim) (p : Coords (d + 1)) (s : SegmentN (d + 1)) :
    ∃ r, computeDistanceN K (.point d p) (.segment d s) = .val r ∧
      computeDistanceN K (.segment d s) (.point d p) = .val r ∧
      (∀ q ∈ nPoints (.segment d s), r ≤ Spec.dist (Spec.inSpace p) q) ∧
      ∃ q ∈ nPoints (.segment d s), Spec.dist (Spec.inSpace p) q ≤
        r + 1 / 10 ^ 7 * Spec.dist (Spec.inSpace s.source) (Spec.inSpace s.target) := by
  obtain ⟨r, h1, _, h3, h4⟩ := C73_point_segment K (Spec.inSpace p) (segmentInSpace d s)
  have hr : distPointSegmentN p s = r := by
    rw [inSpace_distPointSegment]
    exact Outcome.val.inj h1
  refine ⟨r, ?_, ?_, h3, h4⟩
  · rw [← hr]; simp [computeDistanceN]
  · rw [← hr]; simp [computeDistanceN]

/-- In Python the distance is the distance between the sets of points as soon as one argument is of lower dimension,
also for a point and a segment.  Arcs are taken for ellipses (C96). -/
theorem C112_python (K : ShapeKernel) (hK : Faithful K) (a b : NArg) (ha : ValidN a) (hb : ValidN b)
    (hl : (∀ x, a ≠ .space x) ∨ ∀ x, b ≠ .space x)
    (harc : ∀ x, a = .space x ∨ b = .space x → ¬ IsArc x) (r : ℝ) (h : pyComputeDistanceN K a b = .val r) :
    Spec.SetDist (nPoints a) (nPoints b) r := by
  have pts : ∀ x s, ValidN x → (∀ y, x = .space y → ¬ IsArc y) → pyGetShapeN K x = .val s → s.points = nPoints x := by
    intro x s hv hx hs
    cases x with
    | space y =>
      have hs : pyGetShape K y = .val s := hs
      cases y with
      | line l => cases hs
      | shape t => cases hs; rfl
      | geom g => exact shape_points (a := .geom g) hK hv ((pyGetShape_eq (hx _ rfl) (by simp)).1 hs)
    | point d p => exact C112_shape K hK _ hv s (.inr ⟨by simp, hs⟩)
    | segment d p => exact C112_shape K hK _ hv s (.inr ⟨by simp, hs⟩)
    | line d p => exact C112_shape K hK _ hv s (.inr ⟨by simp, hs⟩)
  have h : (do
      let s ← pyGetShapeN K a
      let t ← pyGetShapeN K b
      computeDistance K (.shape s) (.shape t)) = .val r := by
    cases a <;> cases b <;> first
      | exact h
      | exact (hl.elim (fun h => h _ rfl) fun h => h _ rfl).elim
  obtain ⟨s, hs, h⟩ := Outcome.bind_eq_val.1 h
  obtain ⟨t, ht, h⟩ := Outcome.bind_eq_val.1 h
  rw [← pts a s ha (fun y hy => harc y (.inl hy)) hs, ← pts b t hb (fun y hy => harc y (.inr hy)) ht]
  exact C73_distance K hK (.shape s) (.shape t) trivial trivial id r h

/-- Points and segments of any dimension have a shape, in C++ and in Python; lines have none. -/
theorem C112_accepted (K : ShapeKernel) (hN : NeverFails K) (d : LowDim) (p : Coords (d + 1)) (s : SegmentN (d + 1))
    (l : LineN (d + 1)) :
    (∃ v, getShapeN K (.point d p) = .val v ∧ pyGetShapeN K (.point d p) = .val v) ∧
    (∃ e, getShapeN K (.segment d s) = .val e ∧ pyGetShapeN K (.segment d s) = .val e) ∧
    (getShapeN K (.line d l)).isThrown ∧ pyGetShapeN K (.line d l) = .thrown "TypeError" := by
  obtain ⟨v, hv⟩ := hN.vertex (occPoint d p)
  obtain ⟨e, he⟩ := hN.edge (occPoint d s.source) (occPoint d s.target)
  have h1 : getShapeN K (.point d p) = .val v := by simp only [getShapeN, hv, doneOr]
  have h2 : getShapeN K (.segment d s) = .val e := by simp only [getShapeN, he, doneOr]
  refine ⟨⟨v, h1, ?_⟩, ⟨e, h2, ?_⟩, trivial, ?_⟩
  · rw [← h1]; fin_cases d <;> rfl
  · rw [← h2]; fin_cases d <;> rfl
  · fin_cases d <;> rfl

/-- Example: the points `3` and `5` of the line have the distance `2`; the point `3` and the point `(0, 4)` of the plane
have the distance `5`, computed with their shapes. -/
example : computeDistanceN idealKernel (.point 0 (fun _ => 3)) (.point 0 (fun _ => 5)) = .val 2 ∧
    ∀ r, computeDistanceN idealKernel (.point 0 (fun _ => 3)) (.point 1 ![0, 4]) = .val r → r = 5 := by
  constructor
  · simp only [computeDistanceN, dif_pos, distPointPointN, Coords.length, Coords.squaredLength, vectorBetween]
    congr 1
    norm_num
    rw [show (4 : ℝ) = 2 ^ 2 by norm_num, Real.sqrt_sq (by norm_num)]
  · intro r h
    have h := C112_distance idealKernel idealKernel_faithful (.point 0 fun _ => 3) (.point 1 ![0, 4]) trivial trivial id r h
    have hd : Spec.dist (Spec.inSpace fun _ : Fin 1 => (3 : ℝ)) (Spec.inSpace ![(0 : ℝ), 4]) = 5 := by
      simp [Spec.dist, Spec.inSpace]
      rw [show (3 ^ 2 + 4 ^ 2 : ℝ) = 5 ^ 2 by norm_num, Real.sqrt_sq (by norm_num)]
    refine le_antisymm ?_ ?_
    · have := h.1 _ rfl _ rfl
      exact this.trans_eq hd
    · refine le_of_forall_pos_le_add fun e he => ?_
      obtain ⟨x, hx, y, hy, hxy⟩ := h.2 e he
      rw [Set.mem_singleton_iff.1 hx, Set.mem_singleton_iff.1 hy] at hxy
      exact hd.symm.le.trans hxy.le

end Props
