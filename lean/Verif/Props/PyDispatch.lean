import Verif.Model.Python.Functions
import Verif.Model.Magnitude.PyMagnitude
import Verif.Props.Shapes

/-!
# Functions of the Python package on geometries
-/

namespace Spec
open Verif Frackit

/-- The functions of the Python package that take one geometry. -/
inductive PyFunction where
  | computeMagnitude | getShape | getBoundingBox | defaultEpsilon

/-- Which geometries a function of the Python package accepts. -/
def accepts : PyFunction → AnyGeometry → Prop
  | .computeMagnitude, .point _ => False
  | .computeMagnitude, _ => True
  | .getShape, .triangle _ => False
  | .getShape, .hollowCylinder _ => False
  | .getShape, _ => True
  | .getBoundingBox, .point _ => False
  | .getBoundingBox, .triangle _ => False
  | .getBoundingBox, .hollowCylinder _ => False
  | .getBoundingBox, _ => True
  | .defaultEpsilon, .segment _ => True
  | .defaultEpsilon, .circle _ => True
  | .defaultEpsilon, .ellipse _ => True
  | .defaultEpsilon, .arc _ _ => True
  | .defaultEpsilon, .disk _ => True
  | .defaultEpsilon, .quadrilateral _ => True
  | .defaultEpsilon, .cylinderSurface _ => True
  | .defaultEpsilon, .box _ => True
  | .defaultEpsilon, _ => False

end Spec

namespace Props
open Verif Frackit

/-! ## C96 The Python functions run the code for the class of the object -/

/-- The geometry is an arc. -/
def IsArc : DistArg → Prop
  | .geom (.arc ..) => True
  | _ => False

/-- Full claim: what the Python functions return for a geometry is what the C++ functions return for it. -/
def C96_full : Prop :=
  ∀ (K : ShapeKernel) (g : AnyGeometry), ValidGeom g →
    (∀ m, pyComputeMagnitude (.geometry g) = .val m → computeMagnitude g = .val m) ∧
    (∀ s, pyGetShape K (.geom g) = .val s → getShape K (.geom g) = .val s) ∧
    (∀ b, pyGetBoundingBox K (.geom g) = .val b → getBoundingBox K (.geom g) = .val b) ∧
    (∀ e, pyDefaultEpsilon K (.geom g) = .val e → defaultEpsilon K (.geom g) = .val e)

/-- For all geometries but arcs the functions return what the C++ functions return, including errors, if they accept
the geometry, and raise `TypeError` otherwise.  Missing: arcs. -/
theorem C96_partial (K : ShapeKernel) (g : AnyGeometry) (hg : ¬ IsArc (.geom g)) :
    (Spec.accepts .computeMagnitude g → pyComputeMagnitude (.geometry g) = computeMagnitude g) ∧
    (Spec.accepts .getShape g → pyGetShape K (.geom g) = getShape K (.geom g)) ∧
    (Spec.accepts .getBoundingBox g → pyGetBoundingBox K (.geom g) = getBoundingBox K (.geom g)) ∧
    (Spec.accepts .defaultEpsilon g → pyDefaultEpsilon K (.geom g) = defaultEpsilon K (.geom g)) ∧
    (¬ Spec.accepts .computeMagnitude g → pyComputeMagnitude (.geometry g) = .thrown "TypeError") ∧
    (¬ Spec.accepts .getShape g → pyGetShape K (.geom g) = .thrown "TypeError") ∧
    (¬ Spec.accepts .getBoundingBox g → pyGetBoundingBox K (.geom g) = .thrown "TypeError") ∧
    (¬ Spec.accepts .defaultEpsilon g → pyDefaultEpsilon K (.geom g) = .thrown "TypeError") := by
  cases g <;> first
    | exact absurd trivial hg
    | (refine ⟨?_, ?_, ?_, ?_, ?_, ?_, ?_, ?_⟩ <;> intro h <;> first
        | rfl | exact absurd h (fun h => h) | exact absurd trivial h)

/-- Example: the magnitude of the unit cube is its volume; there is no default tolerance for spheres. -/
example : pyComputeMagnitude (.geometry (.box ⟨0, 1, 0, 1, 0, 1⟩)) = .val 1 ∧
    pyDefaultEpsilon idealKernel (.geom (.sphere ⟨0, 1⟩)) = .thrown "TypeError" := by
  refine ⟨?_, (C96_partial idealKernel (.sphere ⟨0, 1⟩) id).2.2.2.2.2.2.2 id⟩
  rw [(C96_partial idealKernel (.box ⟨0, 1, 0, 1, 0, 1⟩) id).1 trivial]
  change Outcome.val (Box.volume ⟨0, 1, 0, 1, 0, 1⟩) = _
  norm_num [Box.volume]

/-- For arcs the functions return what they return for the ellipse the arc is part of, whatever the end points. -/
theorem C96_arc (K : ShapeKernel) (a : EllipseArc) (occ : ℝ) :
    pyComputeMagnitude (.geometry (.arc a occ)) = computeMagnitude (.ellipse a.ellipse) ∧
    pyGetShape K (.geom (.arc a occ)) = getShape K (.geom (.ellipse a.ellipse)) ∧
    pyGetBoundingBox K (.geom (.arc a occ)) = getBoundingBox K (.geom (.ellipse a.ellipse)) ∧
    pyDefaultEpsilon K (.geom (.arc a occ)) = defaultEpsilon K (.geom (.ellipse a.ellipse)) :=
  ⟨rfl, rfl, rfl, rfl⟩

/-- Lines are rejected with `TypeError`; for shapes the functions return what the C++ functions return. -/
theorem C96_lines_shapes (K : ShapeKernel) (l : Line) (s : Shape) :
    pyGetShape K (.line l) = .thrown "TypeError" ∧ pyGetBoundingBox K (.line l) = .thrown "TypeError" ∧
    pyDefaultEpsilon K (.line l) = .thrown "TypeError" ∧ pyGetShape K (.shape s) = .val s ∧
    pyGetBoundingBox K (.shape s) = getBoundingBox K (.shape s) ∧
    pyDefaultEpsilon K (.shape s) = defaultEpsilon K (.shape s) :=
  ⟨rfl, rfl, rfl, rfl, rfl, rfl⟩

/-- A quarter of the unit circle, from `(1, 0, 0)` to `(0, 1, 0)`. -/
theorem quarter_arc : ∃ a : EllipseArc, MadeArc a ∧ a.ellipse = unitCircle ∧ ¬ a.isFullEllipse ∧
    a.source = ⟨1, 0, 0⟩ ∧ a.target = ⟨0, 1, 0⟩ ∧ a.sourceAngle = 0 ∧ a.targetAngle = Real.pi / 2 := by
  have hpi := Real.pi_pos
  have hpi2 := Real.two_le_pi
  have hv := unitCircle_valid
  have hon := (C09_ellipse_points_on_curve unitCircle hv (Real.pi / 2)).1
  have hon0 := (C09_ellipse_points_on_curve unitCircle hv 0).1
  have hs0 : snap 0 = 0 := by
    rw [snap_of_sin (by rw [Real.cos_zero, abs_one]; exact not_lt.2 (by linarith [confusion_lt]))
      (by rw [Real.sin_zero, abs_zero]; exact confusion_pos), Real.cos_zero, if_neg (by norm_num)]
  have hs1 : snap (Real.pi / 2) = Real.pi / 2 := by
    rw [snap_of_cos (by rw [Real.cos_pi_div_two, abs_zero]; exact confusion_pos),
      Real.sin_pi_div_two, if_neg (by norm_num)]
  refine ⟨⟨unitCircle, Ellipse.getPointFromAngle unitCircle 0,
    Ellipse.getPointFromAngle unitCircle (Real.pi / 2), 0, Real.pi / 2, False⟩, ⟨hv, hon0, hon, ?_⟩, rfl, id, ?_, ?_,
    rfl, rfl⟩
  · unfold EllipseArc.make
    simp only
    rw [if_neg, getAngle_point hv le_rfl (by linarith), getAngle_point hv (by linarith) (by linarith), hs0, hs1]
    · rfl
    · simp only [pointIsEqual, V3.sqLen, Ellipse.getPointFromAngle, unitCircle]
      norm_num [confusion]
  · ext <;> simp [Ellipse.getPointFromAngle, unitCircle]
  · ext <;> simp [Ellipse.getPointFromAngle, unitCircle]

/-- The claim fails: the length of a quarter of the unit circle is, in Python, the length of the whole circle. -/
theorem C96_disproof : ¬ C96_full := by
  intro hf
  obtain ⟨a, ha, he, hn, _⟩ := quarter_arc
  have h := (hf idealKernel (.arc a (Real.pi / 2)) ha).1 (2 * Real.pi) (by
    rw [(C96_arc idealKernel a _).1, he]
    simp only [computeMagnitude, AnyGeometry.dimension, computeLength, unitCircle]
    congr 1
    ring)
  simp only [computeMagnitude, AnyGeometry.dimension, computeLength, if_neg hn] at h
  have := Outcome.val.inj h
  linarith [Real.pi_pos]

/-! ## C97 Distances in Python -/

theorem pyGetShape_eq {K : ShapeKernel} {a : DistArg} {s : Shape} (ha : ¬ IsArc a)
    (hl : ∀ l, a ≠ .line l) : pyGetShape K a = .val s ↔ getShape K a = .val s := by
  cases a with
  | geom g =>
    cases g <;> first
      | exact absurd trivial ha
      | exact Iff.rfl
      | exact ⟨fun h => (by cases h), fun h => (by cases h)⟩
  | line l => exact absurd rfl (hl l)
  | shape s => exact Iff.rfl

/-- Full claim: what the Python function returns is the distance between the points of the arguments, up to the
tolerance for points and segments (C73). -/
def C97_full : Prop :=
  ∀ (a b : DistArg) (d : ℝ), ValidArg a → ValidArg b → ¬ PointSegment a b →
    pyComputeDistance idealKernel a b = .val d → Spec.SetDist (argPoints a) (argPoints b) d

/-- For all geometries and shapes but lines and arcs the Python function returns what the C++ function returns.
Missing: arcs and lines. -/
theorem C97_partial (K : ShapeKernel) (a b : DistArg) (ha : ¬ IsArc a) (hb : ¬ IsArc b)
    (la : ∀ l, a ≠ .line l) (lb : ∀ l, b ≠ .line l) (d : ℝ) :
    pyComputeDistance K a b = .val d ↔ computeDistance K a b = .val d := by
  have gen : closedDistance a b = none →
      ((do let s ← pyGetShape K a; let t ← pyGetShape K b; computeDistance K (.shape s) (.shape t)) = .val d ↔
      computeDistance K a b = .val d) := by
    intro hc
    simp only [computeDistance, hc, Outcome.bind_eq_val, pyGetShape_eq ha la, pyGetShape_eq hb lb]
    constructor
    · rintro ⟨s, hs, t, ht, h⟩
      refine ⟨s, hs, t, ht, ?_⟩
      simpa [closedDistance, getShape] using h
    · rintro ⟨s, hs, t, ht, h⟩
      refine ⟨s, hs, t, ht, ?_⟩
      simpa [closedDistance, getShape] using h
  unfold pyComputeDistance pyDistanceBinding
  split
  · rename_i r hr
    split at hr
    · rw [hr]
    · rw [hr]
    · rw [hr]
    · rw [hr]
    · cases hr
  · rename_i hr
    split at hr
    · rw [hr]
    · rw [hr]
    · rw [hr]
    · rw [hr]
    · cases hr
  · rename_i hr _
    split at hr
    · exact absurd rfl (hr _)
    · exact absurd rfl (hr _)
    · exact absurd rfl (hr _)
    · exact gen rfl
    · rename_i h1 h2 h3 h4
      refine gen ?_
      unfold closedDistance
      split
      · exact absurd rfl (h1 _ _ rfl)
      · exact absurd rfl (lb _)
      · exact absurd rfl (la _)
      · exact absurd rfl (h3 _ _ rfl)
      · exact absurd rfl (h2 _ _ rfl)
      · rfl

/-- The distance between all geometries and shapes but lines and arcs is the distance of their points.  Missing:
arcs and lines. -/
theorem C97_distance_partial (K : ShapeKernel) (hK : Faithful K) (a b : DistArg) (va : ValidArg a) (vb : ValidArg b)
    (ha : ¬ IsArc a) (hb : ¬ IsArc b) (la : ∀ l, a ≠ .line l) (lb : ∀ l, b ≠ .line l) (hps : ¬ PointSegment a b)
    (d : ℝ) (h : pyComputeDistance K a b = .val d) : Spec.SetDist (argPoints a) (argPoints b) d :=
  C73_distance K hK a b va vb hps d ((C97_partial K a b ha hb la lb d).1 h)

/-- No distance is returned if one of the arguments is a line: the error of the C++ function for lines and
geometries other than points, but also for points, whose distance the C++ function computes. -/
theorem C97_lines (K : ShapeKernel) (l : Line) (b : DistArg) (d : ℝ) :
    pyComputeDistance K (.line l) b = .thrown "TypeError" ∧ pyComputeDistance K b (.line l) ≠ .val d ∧
    ∀ p, computeDistance K (.geom (.point p)) (.line l) = .val (distPointLine p l) := by
  refine ⟨?_, ?_, fun p => rfl⟩
  · cases b <;> rfl
  · intro h
    unfold pyComputeDistance pyDistanceBinding at h
    split at h
    · rename_i r hr
      split at hr <;> first | contradiction | cases hr
    · cases h
    · obtain ⟨s, _, h⟩ := Outcome.bind_eq_val.1 h
      obtain ⟨t, ht, h⟩ := Outcome.bind_eq_val.1 h
      cases ht

/-- The ellipse of an arc, and all other arguments as they are. -/
def completed : DistArg → DistArg
  | .geom (.arc a _) => .geom (.ellipse a.ellipse)
  | a => a

theorem completed_shape (K : ShapeKernel) (a : DistArg) : pyGetShape K (completed a) = pyGetShape K a := by
  unfold completed
  split <;> rfl

/-- Arcs are treated like the ellipse they are part of. -/
theorem C97_arcs (K : ShapeKernel) (a b : DistArg) :
    pyComputeDistance K a b = pyComputeDistance K (completed a) (completed b) := by
  have e : pyDistanceBinding K (completed a) (completed b) = pyDistanceBinding K a b := by
    cases a with
    | geom g =>
      cases b with
      | geom g' => cases g <;> cases g' <;> rfl
      | line l => cases g <;> rfl
      | shape s => cases g <;> rfl
    | line l => cases b with
      | geom g' => cases g' <;> rfl
      | line l => rfl
      | shape s => rfl
    | shape s => cases b with
      | geom g' => cases g' <;> rfl
      | line l => rfl
      | shape s => rfl
  unfold pyComputeDistance
  rw [e, completed_shape, completed_shape]

theorem completed_points (a : DistArg) (va : ValidArg a) : argPoints a ⊆ argPoints (completed a) := by
  unfold completed
  split
  · rename_i arc occ
    rintro q ⟨r, h0, h1, rfl⟩
    have key := fun t => (C09_ellipse_points_on_curve arc.ellipse va.1 t).1
    change Spec.OnEllipse _ _ _ _ _ _
    unfold EllipseArc.getPoint
    split_ifs <;> exact key _
  · exact subset_rfl

theorem completed_valid (a : DistArg) (va : ValidArg a) : ValidArg (completed a) := by
  unfold completed
  split
  · exact va.1
  · exact va

theorem completed_not_arc (a : DistArg) : ¬ IsArc (completed a) := by
  unfold completed
  split
  · exact id
  · rename_i h
    intro hi
    unfold IsArc at hi
    split at hi
    · exact h _ _ rfl
    · exact hi

/-- The value returned never exceeds the distance between two points of the arguments, also for arcs. -/
theorem C97_lower_bound (K : ShapeKernel) (hK : Faithful K) (a b : DistArg) (va : ValidArg a) (vb : ValidArg b)
    (d : ℝ) (h : pyComputeDistance K a b = .val d) (p q : V3) (hp : p ∈ argPoints a) (hq : q ∈ argPoints b) :
    d ≤ Spec.dist p q := by
  have hl : ∀ x, (∀ l, x ≠ .line l) → ∀ l, completed x ≠ .line l := by
    intro x hx l
    unfold completed
    split
    · simp
    · exact hx l
  have la : ∀ l, a ≠ .line l := by
    rintro l rfl
    rw [(C97_lines K l b d).1] at h
    cases h
  have lb : ∀ l, b ≠ .line l := by
    rintro l rfl
    exact (C97_lines K l a d).2.1 h
  rw [C97_arcs] at h
  have hp := completed_points a va hp
  have hq := completed_points b vb hq
  have va := completed_valid a va
  have vb := completed_valid b vb
  have h := (C97_partial K _ _ (completed_not_arc a) (completed_not_arc b) (hl a la) (hl b lb) d).1 h
  by_cases hps : PointSegment (completed a) (completed b)
  · unfold PointSegment at hps
    split at hps
    · rename_i x s ex es
      rw [ex, es] at h
      rw [ex] at hp
      rw [es] at hq
      obtain ⟨r, h1, h2, h3, _⟩ := C73_point_segment K x s
      rw [h1] at h
      cases h
      cases hp
      exact h3 q hq
    · rename_i s x es ex
      rw [ex, es] at h
      rw [es] at hp
      rw [ex] at hq
      obtain ⟨r, h1, h2, h3, _⟩ := C73_point_segment K x s
      rw [h2] at h
      cases h
      cases hq
      rw [Spec.dist_comm]
      exact h3 p hp
    · exact hps.elim
  · exact (C73_distance K hK _ _ va vb hps d h).1 p hp q hq

/-- The claim fails: the distance between a quarter of the unit circle and a point on the opposite side of the
circle is said to be zero. -/
theorem C97_disproof : ¬ C97_full := by
  intro hf
  obtain ⟨a, ha, he, hn, hs, ht, h1, h2⟩ := quarter_arc
  have hpi := Real.pi_pos
  obtain ⟨s, hs⟩ := (C72_supported idealKernel (.ellipse unitCircle)).1 idealKernel_neverFails unitCircle_valid
    (by simp) (by simp) (by simp [ClosedArc])
  have hsp := (C72_shape_partial idealKernel idealKernel_faithful (.ellipse unitCircle) unitCircle_valid s hs).1
  have hmem : (⟨-1, 0, 0⟩ : V3) ∈ s.points := by
    have := (C09_ellipse_points_on_curve unitCircle unitCircle_valid Real.pi).1
    have e : Ellipse.getPointFromAngle unitCircle Real.pi = ⟨-1, 0, 0⟩ := by
      ext <;> simp [Ellipse.getPointFromAngle, unitCircle]
    rw [hsp]
    rw [e] at this
    exact this
  obtain ⟨d, hd, hset⟩ := ideal_extrema (s := s) (t := ⟨.vertex, {(⟨-1, 0, 0⟩ : V3)}, ∅⟩) ⟨_, hmem⟩ ⟨_, rfl⟩
  have hpy : pyComputeDistance idealKernel (.geom (.arc a 0)) (.geom (.point ⟨-1, 0, 0⟩)) = .val d := by
    rw [← hd]
    unfold pyComputeDistance
    rw [(C96_arc idealKernel a 0).2.1, he, hs]
    rfl
  have h0 : d ≤ 0 := by
    have := hset.1 _ hmem (⟨-1, 0, 0⟩ : V3) rfl
    simpa [Spec.dist] using this
  have hb := hf (.geom (.arc a 0)) (.geom (.point ⟨-1, 0, 0⟩)) d ha trivial id hpy
  obtain ⟨p, ⟨r, r0, r1, rfl⟩, q, hq, hpq⟩ := hb.2 (1 / 2) (by norm_num)
  cases hq
  have hx : 0 ≤ (a.getPoint r).x := by
    have hc : 0 ≤ Real.cos (Real.pi / 2 * r) :=
      Real.cos_nonneg_of_mem_Icc ⟨by nlinarith, by nlinarith⟩
    simp only [EllipseArc.getPoint, he, h1, h2]
    simpa [Ellipse.getPointFromAngle, unitCircle, hpi] using hc
  have hlt : Spec.dist (a.getPoint r) ⟨-1, 0, 0⟩ < 1 := by linarith
  unfold Spec.dist at hlt
  rw [Real.sqrt_lt' (by norm_num)] at hlt
  nlinarith [sq_nonneg ((a.getPoint r).y - 0), sq_nonneg ((a.getPoint r).z - 0)]

theorem foldl_min : ∀ (l : List ℝ) (x : ℝ), (l.foldl min x ≤ x ∧ ∀ y ∈ l, l.foldl min x ≤ y) ∧
    (l.foldl min x = x ∨ l.foldl min x ∈ l)
  | [], x => by simp
  | y :: t, x => by
    obtain ⟨⟨h1, h2⟩, h3⟩ := foldl_min t (min x y)
    simp only [List.foldl_cons]
    refine ⟨⟨h1.trans (min_le_left _ _), ?_⟩, ?_⟩
    · intro z hz
      rcases List.mem_cons.1 hz with rfl | hz
      · exact h1.trans (min_le_right _ _)
      · exact h2 z hz
    · rcases h3 with h3 | h3
      · rcases min_choice x y with e | e
        · left; rw [h3, e]
        · right; rw [h3, e]; exact List.mem_cons_self
      · right; exact List.mem_cons_of_mem _ h3

theorem distances_spec (K : ShapeKernel) (a : DistArg) : ∀ (l : List DistArg) (ds : List ℝ),
    pyDistances K a l = .val ds ↔ List.Forall₂ (fun b d => pyComputeDistance K a b = .val d) l ds
  | [], ds => by
    constructor
    · intro h; cases h; exact .nil
    · intro h; cases h; rfl
  | b :: t, ds => by
    have ih := distances_spec K a t
    constructor
    · intro h
      obtain ⟨d, hd, h⟩ := Outcome.bind_eq_val.1 h
      obtain ⟨r, hr, h⟩ := Outcome.bind_eq_val.1 h
      cases h
      exact .cons hd ((ih r).1 hr)
    · intro h
      cases h with
      | cons hd ht =>
        unfold pyDistances
        rw [hd, (ih _).2 ht]
        rfl

theorem forall₂_left {α β : Type} {R : α → β → Prop} : ∀ {l : List α} {u : List β}, List.Forall₂ R l u →
    ∀ a ∈ l, ∃ b ∈ u, R a b
  | _, _, .nil, a, h => by simp at h
  | _, _, .cons h t, a, ha => by
    rcases List.mem_cons.1 ha with rfl | ha
    · exact ⟨_, List.mem_cons_self, h⟩
    · obtain ⟨b, hb, hr⟩ := forall₂_left t a ha
      exact ⟨b, List.mem_cons_of_mem _ hb, hr⟩

theorem forall₂_right {α β : Type} {R : α → β → Prop} : ∀ {l : List α} {u : List β}, List.Forall₂ R l u →
    ∀ b ∈ u, ∃ a ∈ l, R a b
  | _, _, .nil, a, h => by simp at h
  | _, _, .cons h t, a, ha => by
    rcases List.mem_cons.1 ha with rfl | ha
    · exact ⟨_, List.mem_cons_self, h⟩
    · obtain ⟨b, hb, hr⟩ := forall₂_right t a ha
      exact ⟨b, List.mem_cons_of_mem _ hb, hr⟩

theorem forall₂_exists {α β : Type} {R : α → β → Prop} : ∀ {l : List α}, (∀ a ∈ l, ∃ b, R a b) →
    ∃ u, List.Forall₂ R l u
  | [], _ => ⟨[], .nil⟩
  | a :: t, h => by
    obtain ⟨b, hb⟩ := h a List.mem_cons_self
    obtain ⟨u, hu⟩ := forall₂_exists fun x hx => h x (List.mem_cons_of_mem a hx)
    exact ⟨b :: u, .cons hb hu⟩

/-- For a list the smallest distance to its elements is returned; all of them have to be computable, and the list
must not be empty. -/
theorem C97_list (K : ShapeKernel) (a : DistArg) (l : List DistArg) (d : ℝ) :
    (pyComputeDistanceList K a l = .val d ↔
      (∀ b ∈ l, ∃ r, pyComputeDistance K a b = .val r ∧ d ≤ r) ∧ ∃ b ∈ l, pyComputeDistance K a b = .val d) ∧
    pyComputeDistanceList K a [] = .thrown "ValueError" := by
  refine ⟨?_, rfl⟩
  have fwd : ∀ d, pyComputeDistanceList K a l = .val d →
      (∀ b ∈ l, ∃ r, pyComputeDistance K a b = .val r ∧ d ≤ r) ∧ ∃ b ∈ l, pyComputeDistance K a b = .val d := by
    intro d h
    obtain ⟨ds, hds, h⟩ := Outcome.bind_eq_val.1 h
    have hf := (distances_spec K a l ds).1 hds
    cases ds with
    | nil => cases h
    | cons x t =>
      cases h
      obtain ⟨⟨m1, m2⟩, m3⟩ := foldl_min t x
      have hall : ∀ y ∈ x :: t, t.foldl min x ≤ y := by
        intro y hy
        rcases List.mem_cons.1 hy with rfl | hy
        · exact m1
        · exact m2 y hy
      have hmem : t.foldl min x ∈ x :: t := by
        rcases m3 with e | e
        · rw [e]; exact List.mem_cons_self
        · exact List.mem_cons_of_mem _ e
      constructor
      · intro b hb
        obtain ⟨r, hr, hbr⟩ := forall₂_left hf b hb
        exact ⟨r, hbr, hall r hr⟩
      · obtain ⟨b, hb, hbr⟩ := forall₂_right hf _ hmem
        exact ⟨b, hb, hbr⟩
  refine ⟨fwd d, ?_⟩
  rintro ⟨h1, b, hb, hd⟩
  obtain ⟨ds, hds⟩ := forall₂_exists (R := fun b d => pyComputeDistance K a b = .val d)
    (fun b hb => (h1 b hb).imp fun _ h => h.1)
  obtain ⟨e, he⟩ : ∃ e, pyComputeDistanceList K a l = .val e := by
    unfold pyComputeDistanceList
    rw [(distances_spec K a l ds).2 hds]
    cases ds with
    | nil => cases hds; simp at hb
    | cons x t => exact ⟨_, rfl⟩
  obtain ⟨g1, b', hb', g2⟩ := fwd e he
  obtain ⟨r, hr, her⟩ := g1 b hb
  rw [hd] at hr
  cases hr
  obtain ⟨r, hr, hdr⟩ := h1 b' hb'
  rw [g2] at hr
  cases hr
  rw [he, le_antisymm her hdr]

/-- Example: the distance between the origin and two points. -/
example : pyComputeDistanceList idealKernel (.geom (.point 0))
    [.geom (.point ⟨0, 3, 4⟩), .geom (.point ⟨0, 2, 0⟩)] = .val 2 := by
  have h1 : pyComputeDistance idealKernel (.geom (.point 0)) (.geom (.point ⟨0, 3, 4⟩)) = .val 5 := by
    change Outcome.val (distPointPoint _ _) = _
    congr 1
    rw [distPointPoint, V3.len, show (5 : ℝ) = Real.sqrt (5 ^ 2) from (Real.sqrt_sq (by norm_num)).symm]
    norm_num [V3.sqLen, V3.dot]
  have h2 : pyComputeDistance idealKernel (.geom (.point 0)) (.geom (.point ⟨0, 2, 0⟩)) = .val 2 := by
    change Outcome.val (distPointPoint _ _) = _
    congr 1
    rw [distPointPoint, V3.len, show (2 : ℝ) = Real.sqrt (2 ^ 2) from (Real.sqrt_sq (by norm_num)).symm]
    norm_num [V3.sqLen, V3.dot]
  refine (C97_list idealKernel _ _ 2).1.2 ⟨?_, _, by simp, h2⟩
  intro b hb
  simp only [List.mem_cons, List.not_mem_nil, or_false] at hb
  rcases hb with rfl | rfl
  · exact ⟨5, h1, by norm_num⟩
  · exact ⟨2, h2, le_rfl⟩

end Props
