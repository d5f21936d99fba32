import Verif.Spec.Constraints
import Mathlib.Tactic.IntervalCases
import Mathlib.Tactic.Linarith
import Mathlib.Tactic.NormNum

/-!
# Constraints (C35, C36, C37)
-/

namespace Props
open Verif Frackit Frackit.Constraints
open Spec.Constraints (config Config parts NoIntersection IsCurve IsSurface DimAtMost AtLeast PointOk
  BoundaryOk Accept PointOkBy BoundaryOkBy AcceptBy NotLess NoNaN Total Stricter)

variable {E : Type} (eng : Engine E)

/-! ## Sequential conjunction -/

theorem allOf_true {α : Type} (f : α → Outcome Bool) (l : List α) :
    allOf f l = .val true ↔ ∀ a ∈ l, f a = .val true := by
  induction l with
  | nil => simp [allOf]
  | cons a t ih =>
    simp only [allOf, List.mem_cons, forall_eq_or_imp]
    cases h : f a with
    | val b => cases b <;> simp [ih]
    | thrown e => simp
    | nan => simp
    | ub => simp

/-- The conjunction is false exactly if some element is and all before it hold. -/
theorem allOf_false {α : Type} (f : α → Outcome Bool) (l : List α) :
    allOf f l = .val false ↔
      ∃ l1 a l2, l = l1 ++ a :: l2 ∧ f a = .val false ∧ ∀ x ∈ l1, f x = .val true := by
  induction l with
  | nil => simp [allOf]
  | cons a t ih =>
    have key : (∃ l1 b l2, a :: t = l1 ++ b :: l2 ∧ f b = .val false ∧ ∀ x ∈ l1, f x = .val true) ↔
        (f a = .val false ∨ (f a = .val true ∧
          ∃ l1 b l2, t = l1 ++ b :: l2 ∧ f b = .val false ∧ ∀ x ∈ l1, f x = .val true)) := by
      constructor
      · rintro ⟨l1, b, l2, he, hb, hl⟩
        cases l1 with
        | nil => simp only [List.nil_append, List.cons.injEq] at he; left; rw [he.1]; exact hb
        | cons c l1 =>
          simp only [List.cons_append, List.cons.injEq] at he
          right
          exact ⟨he.1 ▸ hl c List.mem_cons_self, l1, b, l2, he.2, hb,
            fun x hx => hl x (List.mem_cons_of_mem _ hx)⟩
      · rintro (h | ⟨h, l1, b, l2, he, hb, hl⟩)
        · exact ⟨[], a, t, rfl, h, by simp⟩
        · refine ⟨a :: l1, b, l2, by rw [he]; rfl, hb, ?_⟩
          intro x hx
          rcases List.mem_cons.1 hx with rfl | hx
          · exact h
          · exact hl x hx
    rw [key]
    simp only [allOf]
    cases h : f a with
    | val b => cases b <;> simp [ih]
    | thrown e => simp
    | nan => simp
    | ub => simp

theorem allOf_isVal {α : Type} (f : α → Outcome Bool) (l : List α) (h : ∀ a ∈ l, (f a).isVal) :
    (allOf f l).isVal := by
  induction l with
  | nil => trivial
  | cons a t ih =>
    have h1 := h a List.mem_cons_self
    have h2 := ih fun x hx => h x (List.mem_cons_of_mem _ hx)
    simp only [allOf]
    cases hf : f a with
    | val b => cases b <;> simp_all
    | thrown e => rw [hf] at h1; exact h1.elim
    | nan => rw [hf] at h1; exact h1.elim
    | ub => rw [hf] at h1; exact h1.elim

/-! ## The building blocks -/

theorem isEmpty_iff (r : IsResult) : isEmptyIntersection r = true ↔ NoIntersection r := by
  have hg : ∀ g : IsGeom, isEmptyGeom g = true ↔ g = .empty := by
    intro g; cases g <;> simp [isEmptyGeom]
  cases r with
  | single g => simp [isEmptyIntersection, NoIntersection, parts, hg]
  | list gs => simp [isEmptyIntersection, NoIntersection, parts, hg]

theorem dim_iff (g : IsGeom) (d : ℤ) : admissibleDimensionGeom d g = true ↔ DimAtMost g d := by
  unfold admissibleDimensionGeom DimAtMost IsCurve IsSurface
  rw [decide_eq_true_iff]
  cases g <;> simp [IsGeom.dimension] <;> omega

theorem dimension_iff (r : IsResult) (d : ℤ) :
    isAdmissibleDimension r d = true ↔ ∀ g ∈ parts r, DimAtMost g d := by
  cases r with
  | single g => simp [isAdmissibleDimension, parts, dim_iff]
  | list gs => simp [isAdmissibleDimension, parts, dim_iff]

theorem ge_iff (t : ℝ) (o : Outcome ℝ) : greaterEqual o t = .val true ↔ AtLeast o t := by
  unfold AtLeast greaterEqual
  cases o <;> simp

theorem notlt_iff (o : Outcome ℝ) (t : ℝ) :
    (lessThan o t >>= fun l => (pure (!l) : Outcome Bool)) = .val true ↔ NotLess o t := by
  unfold NotLess AtLeast lessThan
  cases o <;> simp

theorem magnitudeGeom_iff (t : ℝ) (g : IsGeom) :
    admissibleMagnitudeGeom eng t g = .val true ↔ (IsCurve g ∨ IsSurface g → AtLeast (eng.magnitude g) t) := by
  have key : ∀ o : Outcome ℝ, greaterEqual o t = .val true ↔ AtLeast o t := ge_iff t
  unfold admissibleMagnitudeGeom IsCurve IsSurface
  cases g <;> simp [IsGeom.dimension, isEmptyGeom] <;> exact key _

theorem magnitude_iff (r : IsResult) (t : ℝ) :
    isAdmissibleMagnitude eng r t = .val true ↔
      ∀ g ∈ parts r, IsCurve g ∨ IsSurface g → AtLeast (eng.magnitude g) t := by
  cases r with
  | single g =>
    simp only [isAdmissibleMagnitude, parts, List.mem_singleton, forall_eq]
    exact magnitudeGeom_iff eng t g
  | list gs =>
    simp only [isAdmissibleMagnitude, parts]
    rw [allOf_true]
    exact forall₂_congr fun g _ => magnitudeGeom_iff eng t g

theorem point_iff (e : E) (t : ℝ) (p : V3) :
    pointAdmissible eng e t p = .val true ↔ PointOk eng e t p := by
  unfold pointAdmissible PointOk PointOkBy
  cases h : eng.onBoundary p e with
  | val b =>
    cases b with
    | true => simp
    | false => simp [ge_iff]
  | thrown e => simp
  | nan => simp
  | ub => simp

theorem both_iff (o1 o2 : Outcome Bool) :
    (o1 >>= fun b => if !b then (pure false : Outcome Bool) else o2) = .val true ↔
      o1 = .val true ∧ o2 = .val true := by
  cases o1 with
  | val b => cases b <;> simp
  | thrown e => simp
  | nan => simp
  | ub => simp

theorem arc_iff (e : E) (t : ℝ) (a : EllipseArc) :
    arcAdmissible eng e t a = .val true ↔ BoundaryOkBy eng NotLess e t (.arc a) := by
  simp only [arcAdmissible, BoundaryOkBy, PointOkBy]
  cases hs : eng.onBoundary a.source e with
  | thrown e => simp
  | nan => simp
  | ub => simp
  | val s =>
  cases ht : eng.onBoundary a.target e with
  | thrown e => cases s <;> simp
  | nan => cases s <;> simp
  | ub => cases s <;> simp
  | val b =>
  cases s with
  | true =>
    cases b with
    | true => simp
    | false =>
      have h := both_iff (lessThan (eng.boundaryDist a.target e) t >>= fun l => (pure (!l) : Outcome Bool)) (pure true)
      rw [notlt_iff] at h
      simpa using h
  | false =>
    cases b with
    | true =>
      have h := both_iff (lessThan (eng.boundaryDist a.source e) t >>= fun l => (pure (!l) : Outcome Bool)) (pure true)
      rw [notlt_iff] at h
      simpa using h
    | false =>
      simp only [Outcome.val_bind, Bool.or_self, Bool.false_eq_true, if_false, allOf_true,
        List.mem_cons, List.not_mem_nil, or_false, forall_eq_or_imp, forall_eq]
      simp only [ge_iff]
      constructor
      · rintro ⟨h0, h1, h2, h3, h4⟩
        right
        refine ⟨trivial, trivial, ?_⟩
        intro k hk
        interval_cases k
        · simpa using h0
        · simpa using h1
        · rw [show (((2 : ℕ) : ℝ) / 4) = 1 / 2 from by norm_num]; exact h2
        · simpa using h3
        · simpa using h4
      · rintro (⟨_, _, h | h⟩ | ⟨_, _, h⟩)
        · cases h
        · cases h
        · have h0 := h 0 (by norm_num)
          have h1 := h 1 (by norm_num)
          have h2 := h 2 (by norm_num)
          have h3 := h 3 (by norm_num)
          have h4 := h 4 (by norm_num)
          rw [show (((2 : ℕ) : ℝ) / 4) = 1 / 2 from by norm_num] at h2
          refine ⟨by simpa using h0, by simpa using h1, h2, by simpa using h3, by simpa using h4⟩

theorem boundaryGeom_iff (e : E) (t : ℝ) (g : IsGeom) :
    boundaryAdmissibleGeom eng e t g = .val true ↔ BoundaryOkBy eng NotLess e t g := by
  cases g with
  | empty => simp [boundaryAdmissibleGeom, BoundaryOkBy]
  | point p => exact point_iff eng e t p
  | segment s =>
    simp only [boundaryAdmissibleGeom, BoundaryOkBy]
    rw [both_iff, point_iff, point_iff]
  | arc a => exact arc_iff eng e t a
  | ellipse el =>
    exact ge_iff _ _
  | edge n p q =>
    simp only [boundaryAdmissibleGeom, BoundaryOkBy]
    rw [both_iff, point_iff, point_iff]
  | polygon p => simp [boundaryAdmissibleGeom, BoundaryOkBy]
  | face n => simp [boundaryAdmissibleGeom, BoundaryOkBy]

theorem boundary_iff (e : E) (t : ℝ) (r : IsResult) :
    isAdmissibleDistanceToBoundary eng r e t = .val true ↔ ∀ g ∈ parts r, BoundaryOkBy eng NotLess e t g := by
  cases r with
  | single g =>
    simp only [isAdmissibleDistanceToBoundary, parts, List.mem_singleton, forall_eq]
    exact boundaryGeom_iff eng e t g
  | list gs =>
    simp only [isAdmissibleDistanceToBoundary, parts]
    rw [allOf_true]
    exact forall₂_congr fun g _ => boundaryGeom_iff eng e t g

/-! ## Configuration histories -/

/-- Relation of the stored data and the configuration. -/
structure ConfInv (c : Constraints) (k : Config) : Prop where
  dist : k.minDistance = if c.useMinDistance then some c.minDistance else none
  angle : k.minAngle = if c.useMinIsAngle then some c.minIsAngle else none
  mag : k.minMagnitude = if c.useMinIsMagnitude then some c.minIsMagnitude else none
  bnd : k.minBoundaryDistance = if c.useMinIsDistance then some c.minIsDistance else none
  eps : k.eps = if c.useIntersectionEps then some c.intersectionEps else none
  equi : k.allowEquiDim = c.allowEquiDimIS

theorem confInv_run (ops : List Op) : ConfInv (run ops) (config ops.reverse) := by
  have gen : ∀ (ops h : List Op) (c : Constraints), ConfInv c (config h) →
      ConfInv (ops.foldl step c) (config (ops.reverse ++ h)) := by
    intro ops
    induction ops with
    | nil => intro h c H; exact H
    | cons o t ih =>
      intro h c H
      have H' : ConfInv (step c o) (config (o :: h)) := by
        obtain ⟨h1, h2, h3, h4, h5, h6⟩ := H
        cases o <;> exact ⟨by first | rfl | exact h1, by first | rfl | exact h2,
          by first | rfl | exact h3, by first | rfl | exact h4, by first | rfl | exact h5,
          by first | rfl | exact h6⟩
      have := ih (o :: h) (step c o) H'
      simpa using this
  have := gen ops [] init ⟨rfl, rfl, rfl, rfl, rfl, rfl⟩
  rw [List.append_nil] at this
  exact this

theorem accept_of_inv (c : Constraints) (k : Config) (H : ConfInv c k) (a b : E) :
    evaluate eng c a b = .val true ↔ k.Inactive ∨ AcceptBy eng NotLess k a b := by
  obtain ⟨h1, h2, h3, h4, h5, h6⟩ := H
  unfold evaluate
  have hin : k.Inactive ↔ ((!(c.useMinIsMagnitude || c.useMinIsAngle || c.useMinIsDistance)) &&
      !c.useMinDistance) = true := by
    unfold Config.Inactive
    rw [h1, h2, h3, h4]
    cases c.useMinDistance <;> cases c.useMinIsAngle <;> cases c.useMinIsMagnitude <;>
      cases c.useMinIsDistance <;> simp
  simp only
  by_cases hI : k.Inactive
  · rw [if_pos (hin.1 hI)]
    simp [hI]
  · rw [if_neg (fun h => hI (hin.2 h))]
    simp only [hI, false_or]
    have hint : (if (!c.useIntersectionEps) = true then eng.intersect a b none
        else eng.intersect a b (some c.intersectionEps)) = eng.intersect a b k.eps := by
      rw [h5]; cases c.useIntersectionEps <;> simp
    rw [hint]
    unfold AcceptBy
    cases hr : eng.intersect a b k.eps with
    | thrown e => simp
    | nan => simp
    | ub => simp
    | val r =>
      simp only [Outcome.val_bind, Outcome.val.injEq, exists_eq_left']
      by_cases hD : NoIntersection r
      · rw [if_neg (by rw [(isEmpty_iff r).2 hD]; simp)]
        simp only [hD, true_and, not_true_eq_false, false_and, or_false]
        rw [h1]
        cases c.useMinDistance with
        | false => simp
        | true =>
          simp only [if_true, Option.some.injEq, forall_eq']
          exact ge_iff _ _
      · have he : isEmptyIntersection r = false := by
          cases h : isEmptyIntersection r with
          | false => rfl
          | true => exact absurd ((isEmpty_iff r).1 h) hD
        rw [if_pos (by rw [he]; rfl)]
        simp only [hD, false_and, not_false_eq_true, true_and, false_or]
        rw [h6, h3, h2, h4]
        by_cases hdim : (!c.allowEquiDimIS && !isAdmissibleDimension r (eng.dim - 1)) = true
        · rw [if_pos hdim]
          simp only [Bool.and_eq_true, Bool.not_eq_true'] at hdim
          simp only [Outcome.pure_eq, Outcome.val.injEq, Bool.false_eq_true, false_iff, not_and]
          intro h
          have := (dimension_iff r _).2 (h hdim.1)
          rw [hdim.2] at this
          cases this
        · rw [if_neg hdim]
          have hdimok : (c.allowEquiDimIS = false → ∀ g ∈ parts r, DimAtMost g (eng.dim - 1)) := by
            intro h
            apply (dimension_iff r _).1
            rw [h] at hdim
            simpa using hdim
          have bstep : ∀ (o : Outcome Bool) (f : Outcome Bool),
              (o >>= fun b => if (!b) = true then (pure false : Outcome Bool) else f) = .val true ↔
                o = .val true ∧ f = .val true := both_iff
          rw [bstep, bstep]
          have hm : (if c.useMinIsMagnitude = true then isAdmissibleMagnitude eng r c.minIsMagnitude
              else pure true) = .val true ↔
              ∀ m, (if c.useMinIsMagnitude = true then some c.minIsMagnitude else none) = some m →
                ∀ g ∈ parts r, IsCurve g ∨ IsSurface g → AtLeast (eng.magnitude g) m := by
            cases c.useMinIsMagnitude with
            | false => simp
            | true =>
              simp only [if_true, Option.some.injEq, forall_eq']
              exact magnitude_iff eng r _
          rw [hm]
          have ha : (if c.useMinIsAngle = true then do
              let l ← lessThan (eng.angle a b r) c.minIsAngle
              pure (!l) else (pure true : Outcome Bool)) = .val true ↔
              ∀ t, (if c.useMinIsAngle = true then some c.minIsAngle else none) = some t →
                NotLess (eng.angle a b r) t := by
            cases c.useMinIsAngle with
            | false => simp
            | true =>
              simp only [if_true, Option.some.injEq, forall_eq']
              exact notlt_iff _ _
          rw [ha]
          have hb : (if (!c.useMinIsDistance) = true then (pure true : Outcome Bool) else do
              let ok1 ← isAdmissibleDistanceToBoundary eng r a c.minIsDistance
              if (!ok1) = true then pure false
              else isAdmissibleDistanceToBoundary eng r b c.minIsDistance) = .val true ↔
              ∀ t, (if c.useMinIsDistance = true then some c.minIsDistance else none) = some t →
                ∀ g ∈ parts r, BoundaryOkBy eng NotLess a t g ∧ BoundaryOkBy eng NotLess b t g := by
            cases c.useMinIsDistance with
            | false => simp
            | true =>
              simp only [Bool.not_true, Bool.false_eq_true, if_false, if_true, Option.some.injEq,
                forall_eq']
              rw [bstep, boundary_iff, boundary_iff]
              constructor
              · rintro ⟨x, y⟩ g hg; exact ⟨x g hg, y g hg⟩
              · intro h; exact ⟨fun g hg => (h g hg).1, fun g hg => (h g hg).2⟩
          rw [hb]
          constructor
          · rintro ⟨x, y, z⟩; exact ⟨hdimok, x, y, z⟩
          · rintro ⟨_, x, y, z⟩; exact ⟨x, y, z⟩

/-! ## C35 Constraint evaluation decides exactly the configured constraints -/

/-- After any configuration history with at least one constraint configured, and for any behaviour of
the geometric computations (including failures): two entities are accepted exactly if they fulfil the
configured constraints, where an angle that is not a number counts as large enough (and likewise the distance of an
end point of an arc, the other end point of which is on the boundary). -/
theorem C35_accepts_exact (ops : List Op) (a b : E) (hact : ¬ (config ops.reverse).Inactive) :
    evaluate eng (run ops) a b = .val true ↔ AcceptBy eng NotLess (config ops.reverse) a b := by
  rw [accept_of_inv eng _ _ (confInv_run ops)]
  simp [hact]

theorem notLess_iff {o : Outcome ℝ} (h : o ≠ .nan) (t : ℝ) : NotLess o t ↔ AtLeast o t := by
  simp [NotLess, h]

theorem acceptBy_iff (N : NoNaN eng) (k : Config) (a b : E) : AcceptBy eng NotLess k a b ↔ Accept eng k a b := by
  have hp : ∀ e t p, PointOkBy eng NotLess e t p ↔ PointOkBy eng AtLeast e t p := by
    intro e t p
    unfold PointOkBy
    rw [notLess_iff (N.boundaryDist p e)]
  have hb : ∀ e t g, BoundaryOkBy eng NotLess e t g ↔ BoundaryOkBy eng AtLeast e t g := by
    intro e t g
    cases g <;> simp only [BoundaryOkBy, hp]
  unfold Accept AcceptBy
  simp only [hb, notLess_iff (N.angle _ _ _)]

/-- The full claim: two entities are accepted exactly if they fulfil the configured constraints. -/
def C35_full : Prop :=
  ∀ (E : Type) (eng : Engine E) (ops : List Op) (a b : E), ¬ (config ops.reverse).Inactive →
    (evaluate eng (run ops) a b = .val true ↔ Accept eng (config ops.reverse) a b)

/-- After any configuration history with at least one constraint configured, and for any behaviour of
the geometric computations (including failures) that does not result in NaN: two entities are accepted exactly if they
fulfil the configured constraints (missing: values that are not numbers, see `C35_disproof`). -/
theorem C35_accepts_iff_partial (N : NoNaN eng) (ops : List Op) (a b : E) (hact : ¬ (config ops.reverse).Inactive) :
    evaluate eng (run ops) a b = .val true ↔ Accept eng (config ops.reverse) a b := by
  rw [C35_accepts_exact eng ops a b hact, acceptBy_iff eng N]

/-- With nothing configured, all entities are accepted. -/
theorem C35_inactive (ops : List Op) (a b : E) (hact : (config ops.reverse).Inactive) :
    evaluate eng (run ops) a b = .val true :=
  (accept_of_inv eng _ _ (confInv_run ops) a b).2 (Or.inl hact)

theorem isVal_bind {α β : Type} {o : Outcome α} {f : α → Outcome β} (h1 : o.isVal)
    (h2 : ∀ a, o = .val a → (f a).isVal) : (o >>= f).isVal := by
  cases o with
  | val a => exact h2 a rfl
  | thrown e => exact h1.elim
  | nan => exact h1.elim
  | ub => exact h1.elim

theorem isVal_ite {α : Type} {c : Prop} [Decidable c] {x y : Outcome α} (hx : c → x.isVal)
    (hy : ¬ c → y.isVal) : (if c then x else y).isVal := by
  split_ifs with h
  · exact hx h
  · exact hy h

theorem greaterEqual_isVal {o : Outcome ℝ} {t : ℝ} (h : o.isVal) : (greaterEqual o t).isVal := by
  cases o <;> first | trivial | exact h.elim

theorem lessThan_isVal {o : Outcome ℝ} {t : ℝ} (h : o.isVal) : (lessThan o t).isVal := by
  cases o <;> first | trivial | exact h.elim

theorem noNaN_of_total (T : Total eng) : NoNaN eng :=
  ⟨fun a b r h => by have := T.angle a b r; rw [h] at this; exact this.elim,
    fun p e h => by have := T.boundaryDist p e; rw [h] at this; exact this.elim⟩

theorem magnitude_isVal (T : Total eng) (r : IsResult) (t : ℝ) :
    (isAdmissibleMagnitude eng r t).isVal := by
  have hg : ∀ g, (admissibleMagnitudeGeom eng t g).isVal := by
    intro g
    unfold admissibleMagnitudeGeom
    split_ifs
    · trivial
    · trivial
    · exact greaterEqual_isVal (T.magnitude g)
  cases r with
  | single g => exact hg g
  | list gs => exact allOf_isVal _ _ fun g _ => hg g

theorem point_isVal (T : Total eng) (e : E) (t : ℝ) (p : V3) : (pointAdmissible eng e t p).isVal := by
  unfold pointAdmissible
  refine isVal_bind (T.onBoundary p e) fun b _ => ?_
  cases b with
  | true => trivial
  | false => exact greaterEqual_isVal (T.boundaryDist p e)

theorem arc_isVal (T : Total eng) (e : E) (t : ℝ) (a : EllipseArc) : (arcAdmissible eng e t a).isVal := by
  unfold arcAdmissible
  refine isVal_bind (T.onBoundary _ _) fun s _ => isVal_bind (T.onBoundary _ _) fun b _ => ?_
  refine isVal_ite (fun _ => ?_) (fun _ => ?_)
  · refine isVal_bind (isVal_ite (fun _ => isVal_bind (lessThan_isVal (T.boundaryDist _ _)) fun _ _ => trivial)
      fun _ => trivial) fun okS _ => isVal_ite (fun _ => trivial) fun _ => ?_
    exact isVal_bind (isVal_ite (fun _ => isVal_bind (lessThan_isVal (T.boundaryDist _ _)) fun _ _ => trivial)
      fun _ => trivial) fun okT _ => isVal_ite (fun _ => trivial) fun _ => trivial
  · exact allOf_isVal _ _ fun p _ => greaterEqual_isVal (T.boundaryDist _ _)

theorem boundary_isVal (T : Total eng) (e : E) (t : ℝ) (r : IsResult)
    (hr : ∀ g ∈ parts r, ¬ IsSurface g) : (isAdmissibleDistanceToBoundary eng r e t).isVal := by
  have hg : ∀ g, ¬ IsSurface g → (boundaryAdmissibleGeom eng e t g).isVal := by
    intro g hs
    cases g with
    | empty => trivial
    | point p => exact point_isVal eng T e t p
    | segment s =>
      simp only [boundaryAdmissibleGeom]
      refine isVal_bind (point_isVal eng T e t _) fun b _ => ?_
      split_ifs
      · trivial
      · exact point_isVal eng T e t _
    | arc a => exact arc_isVal eng T e t a
    | ellipse el => exact greaterEqual_isVal (T.ellipseBoundaryDist _ _)
    | edge n p q =>
      simp only [boundaryAdmissibleGeom]
      refine isVal_bind (point_isVal eng T e t _) fun b _ => ?_
      split_ifs
      · trivial
      · exact point_isVal eng T e t _
    | polygon p => exact absurd (Or.inl ⟨p, rfl⟩) hs
    | face n => exact absurd (Or.inr ⟨n, rfl⟩) hs
  cases r with
  | single g => exact hg g (hr g (by simp [parts]))
  | list gs => exact allOf_isVal _ _ fun g h => hg g (hr g h)

/-- If all geometric computations return values and equi-dimensional intersections of surfaces have not
been allowed, the evaluation returns a value; together with `C35_accepts_iff_partial`: entities that do not
fulfil the constraints are rejected. -/
theorem C35_rejects (ops : List Op) (a b : E) (hact : ¬ (config ops.reverse).Inactive)
    (T : Total eng) (hdim : eng.dim ≤ 2)
    (heq : (config ops.reverse).allowEquiDim = false ∨
      (config ops.reverse).minBoundaryDistance = none) :
    evaluate eng (run ops) a b = .val false ↔ ¬ Accept eng (config ops.reverse) a b := by
  have H := confInv_run ops
  have hv : (evaluate eng (run ops) a b).isVal := by
    generalize run ops = c at H
    generalize config ops.reverse = k at H heq
    obtain ⟨h1, h2, h3, h4, h5, h6⟩ := H
    unfold evaluate
    refine isVal_ite (fun _ => trivial) fun _ => ?_
    refine isVal_bind (isVal_ite (fun _ => T.intersect _ _ _) fun _ => T.intersect _ _ _) fun r _ => ?_
    refine isVal_ite (fun _ => ?_) fun _ => ?_
    · refine isVal_ite (fun _ => trivial) fun hd => ?_
      refine isVal_bind (isVal_ite (fun _ => magnitude_isVal eng T _ _) fun _ => trivial) fun mo _ => ?_
      refine isVal_ite (fun _ => trivial) fun _ => ?_
      refine isVal_bind (isVal_ite (fun _ => isVal_bind (lessThan_isVal (T.angle _ _ _)) fun _ _ => trivial)
        fun _ => trivial) fun ao _ => ?_
      refine isVal_ite (fun _ => trivial) fun _ => ?_
      refine isVal_ite (fun _ => trivial) fun hb => ?_
      have hns : ∀ g ∈ parts r, ¬ IsSurface g := by
        intro g hg hsurf
        rcases heq with heq | heq
        · rw [h6] at heq
          rw [heq] at hd
          have := (dimension_iff r _).1 (by simpa using hd) g hg
          have := this.2.2 hsurf
          omega
        · rw [h4] at heq
          have : c.useMinIsDistance = true := by simpa using hb
          rw [this] at heq
          cases heq
      exact isVal_bind (boundary_isVal eng T _ _ _ hns) fun _ _ =>
        isVal_ite (fun _ => trivial) fun _ => boundary_isVal eng T _ _ _ hns
    · exact isVal_ite (fun _ => greaterEqual_isVal (T.distance _ _)) fun _ => trivial
  rw [← C35_accepts_iff_partial eng (noNaN_of_total eng T) ops a b hact]
  cases h : evaluate eng (run ops) a b with
  | val x => cases x <;> simp
  | thrown e => rw [h] at hv; exact hv.elim
  | nan => rw [h] at hv; exact hv.elim
  | ub => rw [h] at hv; exact hv.elim

/-- The result of the evaluation, whatever it is, depends only on the configuration the history amounts
to: neglecting a constraint restores the behaviour of never having set it. -/
theorem C35_history (ops ops' : List Op) (a b : E)
    (h : config ops.reverse = config ops'.reverse) :
    evaluate eng (run ops) a b = evaluate eng (run ops') a b := by
  have H := confInv_run ops
  have H' := confInv_run ops'
  rw [← h] at H'
  generalize config ops.reverse = k at H H'
  obtain ⟨h1, h2, h3, h4, h5, h6⟩ := H
  obtain ⟨g1, g2, g3, g4, g5, g6⟩ := H'
  generalize run ops = c at *
  generalize run ops' = c' at *
  have opt : ∀ (b b' : Bool) (x x' : ℝ) (o : Option ℝ), o = (if b = true then some x else none) →
      o = (if b' = true then some x' else none) → b = b' ∧ (b = true → x = x') := by
    intro b b' x x' o h h'
    cases b <;> cases b' <;> simp_all
  obtain ⟨u1, v1⟩ := opt _ _ _ _ _ h1 g1
  obtain ⟨u2, v2⟩ := opt _ _ _ _ _ h2 g2
  obtain ⟨u3, v3⟩ := opt _ _ _ _ _ h3 g3
  obtain ⟨u4, v4⟩ := opt _ _ _ _ _ h4 g4
  obtain ⟨u5, v5⟩ := opt _ _ _ _ _ h5 g5
  have u6 : c.allowEquiDimIS = c'.allowEquiDimIS := by rw [← h6, ← g6]
  obtain ⟨d1, a1, m1, b1, ud, ua, um, ub, e1, ue, q⟩ := c
  obtain ⟨d2, a2, m2, b2, ud', ua', um', ub', e2, ue', q'⟩ := c'
  simp only at u1 u2 u3 u4 u5 u6 v1 v2 v3 v4 v5
  subst u1 u2 u3 u4 u5 u6
  unfold evaluate
  cases ud <;> cases ua <;> cases um <;> cases ub <;> cases ue <;> simp_all

/-- Non-trivial instance: setting, overwriting and neglecting constraints. -/
example : config ([.setMinDistance 1, .setMinIntersectingAngle 2, .neglectMinDistance] : List Op).reverse
    = config ([.setMinIntersectingAngle 3, .setMinIntersectingAngle 2] : List Op).reverse := rfl

/-- Enlarging thresholds, adding constraints or prohibiting equi-dimensional intersections never turns
a rejection into an acceptance. -/
theorem C35_monotone (ops ops' : List Op) (a b : E)
    (h : Stricter (config ops'.reverse) (config ops.reverse))
    (hacc : evaluate eng (run ops') a b = .val true) : evaluate eng (run ops) a b = .val true := by
  rw [accept_of_inv eng _ _ (confInv_run ops)]
  rw [accept_of_inv eng _ _ (confInv_run ops')] at hacc
  obtain ⟨s1, s2, s3, s4, s5, s6⟩ := h
  generalize config ops.reverse = k at *
  generalize config ops'.reverse = k' at *
  have mono : ∀ (o : Outcome ℝ) (t t' : ℝ), t ≤ t' → AtLeast o t' → AtLeast o t := by
    rintro o t t' hle ⟨x, hx, hl⟩
    exact ⟨x, hx, hle.trans hl⟩
  have pmono : ∀ (e : E) (t t' : ℝ) (p : V3), t ≤ t' → PointOk eng e t' p → PointOk eng e t p := by
    rintro e t t' p hle (h | ⟨h1, h2⟩)
    · exact Or.inl h
    · exact Or.inr ⟨h1, mono _ _ _ hle h2⟩
  have qmono : ∀ (o : Outcome ℝ) (t t' : ℝ), t ≤ t' → NotLess o t' → NotLess o t := by
    rintro o t t' hle (h | h)
    · exact Or.inl h
    · exact Or.inr (mono o t t' hle h)
  have pqmono : ∀ (e : E) (t t' : ℝ) (p : V3), t ≤ t' → PointOkBy eng NotLess e t' p →
      PointOkBy eng NotLess e t p := by
    rintro e t t' p hle (h | ⟨h1, h2⟩)
    · exact Or.inl h
    · exact Or.inr ⟨h1, qmono _ _ _ hle h2⟩
  have bmono : ∀ (e : E) (t t' : ℝ) (g : IsGeom), t ≤ t' → BoundaryOkBy eng NotLess e t' g →
      BoundaryOkBy eng NotLess e t g := by
    intro e t t' g hle hb
    cases g with
    | empty => trivial
    | point p => exact pmono _ _ _ _ hle hb
    | segment s => exact ⟨pmono _ _ _ _ hle hb.1, pmono _ _ _ _ hle hb.2⟩
    | edge n p q => exact ⟨pmono _ _ _ _ hle hb.1, pmono _ _ _ _ hle hb.2⟩
    | ellipse el => exact mono _ _ _ hle hb
    | arc a =>
      rcases hb with ⟨h1, h2, h3⟩ | ⟨h1, h2, h3⟩
      · exact Or.inl ⟨pqmono _ _ _ _ hle h1, pqmono _ _ _ _ hle h2, h3⟩
      · exact Or.inr ⟨h1, h2, fun n hn => mono _ _ _ hle (h3 n hn)⟩
    | polygon p => exact hb
    | face n => exact hb
  rcases hacc with hin | ⟨r, hr, hacc⟩
  · left
    have none_of : ∀ (x y : Option ℝ), (∀ t, x = some t → ∃ t', y = some t' ∧ t ≤ t') → y = none →
        x = none := by
      intro x y h hy
      cases x with
      | none => rfl
      | some t => obtain ⟨t', ht, _⟩ := h t rfl; rw [hy] at ht; cases ht
    exact ⟨none_of _ _ s1 hin.1, none_of _ _ s2 hin.2.1, none_of _ _ s3 hin.2.2.1,
      none_of _ _ s4 hin.2.2.2⟩
  · right
    rw [s5] at hr
    refine ⟨r, hr, ?_⟩
    rcases hacc with ⟨hD, hd⟩ | ⟨hD, hq, hm, ha, hb⟩
    · left
      refine ⟨hD, fun d hd' => ?_⟩
      obtain ⟨t', ht', hle⟩ := s1 d hd'
      exact mono _ _ _ hle (hd t' ht')
    · right
      refine ⟨hD, ?_, ?_, ?_, ?_⟩
      · intro hf
        apply hq
        cases hk : k'.allowEquiDim with
        | false => rfl
        | true => rw [s6 hk] at hf; cases hf
      · intro m hm' g hg hc
        obtain ⟨t', ht', hle⟩ := s3 m hm'
        exact mono _ _ _ hle (hm t' ht' g hg hc)
      · intro t ht
        obtain ⟨t', ht', hle⟩ := s2 t ht
        exact qmono _ _ _ hle (ha t' ht')
      · intro t ht g hg
        obtain ⟨t', ht', hle⟩ := s4 t ht
        exact ⟨bmono _ _ _ _ hle (hb t' ht' g hg).1, bmono _ _ _ _ hle (hb t' ht' g hg).2⟩

/-- Non-trivial instance of `Stricter`. -/
example : Stricter (config [.setMinDistance 2, .setMinIntersectingAngle 1])
    (config [.setMinDistance 1, .allowEquiDimensionalIntersections true]) := by
  simp only [Stricter, config, Spec.Constraints.minDistance, Spec.Constraints.minAngle,
    Spec.Constraints.minMagnitude, Spec.Constraints.minBoundaryDistance, Spec.Constraints.eps,
    Spec.Constraints.allowEquiDim]
  refine ⟨fun t ht => ⟨2, rfl, ?_⟩, ?_⟩
  · cases ht; norm_num
  · simp

/-- An engine in which all computations succeed: entities are numbers, which intersect in a face if
equal, in a segment if they differ by one, and not at all otherwise. -/
noncomputable def sampleEngine : Engine ℕ where
  dim := 2
  intersect a b _ := .val (if a = b then .single (.face 0)
    else if a + 1 = b ∨ b + 1 = a then .list [.segment ⟨⟨0, 0, 0⟩, ⟨1, 0, 0⟩⟩] else .list [.empty])
  magnitude _ := .val 1
  angle _ _ _ := .val 1
  distance a b := .val |(a : ℝ) - b|
  onBoundary _ _ := .val false
  boundaryDist _ _ := .val 1
  ellipseBoundaryDist _ _ := .val 1

theorem sampleEngine_total : Total sampleEngine :=
  ⟨fun _ _ _ => trivial, fun _ => trivial, fun _ _ _ => trivial, fun _ _ => trivial,
    fun _ _ => trivial, fun _ _ => trivial, fun _ _ => trivial⟩

/-- Non-trivial instance of the hypotheses of `C35_accepts_iff_partial` and `C35_rejects`: with a minimum
distance of 3, the entities 0 and 1 (intersecting) are accepted and 0 and 2 are rejected. -/
example : ¬ (config ([.setMinDistance 3] : List Op).reverse).Inactive ∧
    Accept sampleEngine (config ([.setMinDistance 3] : List Op).reverse) 0 1 ∧
    ¬ Accept sampleEngine (config ([.setMinDistance 3] : List Op).reverse) 0 2 := by
  refine ⟨fun h => (by cases h.1), ?_, ?_⟩
  · refine ⟨.list [.segment ⟨⟨0, 0, 0⟩, ⟨1, 0, 0⟩⟩], rfl, Or.inr ⟨?_, ?_, ?_, ?_, ?_⟩⟩
    · intro h
      have := h (.segment ⟨⟨0, 0, 0⟩, ⟨1, 0, 0⟩⟩) (by simp [parts])
      cases this
    · intro _ g hg
      simp only [parts, List.mem_singleton] at hg
      subst hg
      refine ⟨by simp [sampleEngine], fun _ => by simp [sampleEngine], ?_⟩
      rintro (⟨p, hp⟩ | ⟨n, hn⟩)
      · cases hp
      · cases hn
    · intro m hm; cases hm
    · intro m hm; cases hm
    · intro m hm; cases hm
  · rintro ⟨r, hr, h⟩
    have hr' : r = .list [.empty] := by
      have : sampleEngine.intersect 0 2 none = .val (.list [.empty]) := by simp [sampleEngine]
      have hr2 : sampleEngine.intersect 0 2 none = .val r := hr
      rw [this] at hr2
      injection hr2 with h
      exact h.symm
    subst hr'
    rcases h with ⟨_, h⟩ | ⟨h, _⟩
    · obtain ⟨x, hx, hle⟩ := h 3 rfl
      have : x = 2 := by
        simp only [sampleEngine, Outcome.val.injEq] at hx
        rw [← hx]; norm_num
      rw [this] at hle
      norm_num at hle
    · apply h
      intro g hg
      simpa [parts] using hg

/-- Like `sampleEngine`, but the angles are not numbers. -/
noncomputable def nanAngleEngine : Engine ℕ := { sampleEngine with angle := fun _ _ _ => .nan }

/-- **The code violates the property**: whatever the minimum angle is, entities are accepted if the computed angle is not
a number. -/
theorem C35_nan_accepted (t : ℝ) :
    evaluate nanAngleEngine (run [.setMinIntersectingAngle t]) 0 1 = .val true ∧
    ¬ Accept nanAngleEngine (config [.setMinIntersectingAngle t]) 0 1 := by
  have hr : nanAngleEngine.intersect 0 1 none = .val (.list [.segment ⟨⟨0, 0, 0⟩, ⟨1, 0, 0⟩⟩]) := by
    simp [nanAngleEngine, sampleEngine]
  constructor
  · simp [evaluate, run, step, init, hr, isEmptyIntersection, isEmptyGeom, isAdmissibleDimension,
      admissibleDimensionGeom, IsGeom.dimension, nanAngleEngine, sampleEngine, lessThan]
  · rintro ⟨r, h, h2⟩
    have h' : nanAngleEngine.intersect 0 1 none = .val r := h
    rw [hr] at h'
    cases h'
    rcases h2 with ⟨h2, _⟩ | ⟨_, _, _, h2, _⟩
    · have := h2 _ (List.mem_singleton_self _)
      cases this
    · obtain ⟨x, hx, _⟩ := h2 t rfl
      cases hx

theorem C35_disproof : ¬ C35_full := fun H =>
  (C35_nan_accepted 1).2 ((H ℕ nanAngleEngine [.setMinIntersectingAngle 1] 0 1 (fun h => by cases h.2.1)).1
    (C35_nan_accepted 1).1)

/-- Values that are not numbers are not accepted as distances of entities, nor as lengths or areas of intersections. -/
theorem C35_nan_rejected (ops : List Op) (a b : E) (r : IsResult) (hact : ¬ (config ops.reverse).Inactive)
    (hr : eng.intersect a b (config ops.reverse).eps = .val r)
    (h : (NoIntersection r ∧ (∃ d, (config ops.reverse).minDistance = some d) ∧ eng.distance a b = .nan) ∨
      (∃ m, (config ops.reverse).minMagnitude = some m) ∧
        ∃ g ∈ parts r, (IsCurve g ∨ IsSurface g) ∧ eng.magnitude g = .nan) :
    evaluate eng (run ops) a b ≠ .val true := by
  rw [Ne, C35_accepts_exact eng ops a b hact]
  rintro ⟨r', hr', h2⟩
  rw [hr] at hr'
  cases hr'
  rcases h with ⟨hn, ⟨d, hd⟩, hx⟩ | ⟨⟨m, hm⟩, g, hg, hc, hx⟩
  · rcases h2 with ⟨_, h2⟩ | ⟨h2, _⟩
    · obtain ⟨x, hx', _⟩ := h2 d hd
      rw [hx] at hx'
      cases hx'
    · exact h2 hn
  · rcases h2 with ⟨h2, _⟩ | ⟨_, _, h2, _⟩
    · rw [h2 g hg] at hc
      rcases hc with hc | hc <;> simp [IsCurve, IsSurface] at hc
    · obtain ⟨x, hx', _⟩ := h2 m hm g hg hc
      rw [hx] at hx'
      cases hx'

/-- Non-trivial instance of `C35_nan_rejected`. -/
example : evaluate { sampleEngine with distance := fun _ _ => .nan } (run [.setMinDistance 1]) 0 2 ≠ .val true :=
  C35_nan_rejected _ _ 0 2 (.list [.empty]) (fun h => by cases h.1) (by simp [sampleEngine])
    (Or.inl ⟨fun g hg => by simpa [parts] using hg, ⟨1, rfl⟩, rfl⟩)

/-- With equi-dimensional intersections allowed, the distance of an intersection surface to the
boundary cannot be checked: the evaluation throws instead of accepting or rejecting. -/
theorem C35_equidimensional_throws :
    (evaluate sampleEngine (run [.allowEquiDimensionalIntersections true,
      .setMinIntersectionDistance 1]) 5 5).isThrown := by
  simp [evaluate, run, step, init, sampleEngine, isEmptyIntersection, isEmptyGeom,
    isAdmissibleDistanceToBoundary, boundaryAdmissibleGeom]

/-! ## C36 Equi-dimensional intersections are prohibited by default -/

/-- Full claim: unless allowed, surfaces (entities of dimension two) with a common surface are
rejected. -/
def C36_full : Prop :=
  ∀ (E : Type) (eng : Engine E) (ops : List Op) (a b : E) (r : IsResult), eng.dim = 2 →
    (config ops.reverse).allowEquiDim = false →
    eng.intersect a b (config ops.reverse).eps = .val r → (∃ g ∈ parts r, IsSurface g) →
    evaluate eng (run ops) a b = .val false

/-- A newly constructed constraints object accepts entities with a common surface. -/
theorem C36_disproof : ¬ C36_full ∧
    evaluate sampleEngine (run []) 5 5 = .val true ∧
    sampleEngine.intersect 5 5 none = .val (.single (.face 0)) := by
  have h : evaluate sampleEngine (run []) 5 5 = .val true := rfl
  have h2 : sampleEngine.intersect 5 5 none = .val (.single (.face 0)) := by simp [sampleEngine]
  refine ⟨fun H => ?_, h, h2⟩
  have := H ℕ sampleEngine [] 5 5 (.single (.face 0)) rfl rfl h2
    ⟨.face 0, by simp [parts], Or.inr ⟨0, rfl⟩⟩
  rw [h] at this
  cases this

/-- The claim holds as soon as at least one constraint is configured (missing: without any constraint,
see `C36_disproof`). -/
theorem C36_rejects_partial (ops : List Op) (a b : E) (r : IsResult) (hd : eng.dim = 2)
    (hact : ¬ (config ops.reverse).Inactive) (hal : (config ops.reverse).allowEquiDim = false)
    (hr : eng.intersect a b (config ops.reverse).eps = .val r) (hs : ∃ g ∈ parts r, IsSurface g) :
    evaluate eng (run ops) a b = .val false := by
  have H := confInv_run ops
  generalize run ops = c at *
  generalize config ops.reverse = k at *
  obtain ⟨h1, h2, h3, h4, h5, h6⟩ := H
  obtain ⟨g, hg, hsurf⟩ := hs
  have hne : isEmptyIntersection r = false := by
    cases h : isEmptyIntersection r with
    | false => rfl
    | true =>
      have := (isEmpty_iff r).1 h g hg
      subst this
      rcases hsurf with ⟨p, hp⟩ | ⟨n, hn⟩
      · cases hp
      · cases hn
  have hdim : isAdmissibleDimension r (eng.dim - 1) = false := by
    cases h : isAdmissibleDimension r (eng.dim - 1) with
    | false => rfl
    | true =>
      have := ((dimension_iff r _).1 h g hg).2.2 hsurf
      omega
  have hin : ¬ ((!(c.useMinIsMagnitude || c.useMinIsAngle || c.useMinIsDistance)) &&
      !c.useMinDistance) = true := by
    intro h
    apply hact
    unfold Config.Inactive
    rw [h1, h2, h3, h4]
    revert h
    cases c.useMinDistance <;> cases c.useMinIsAngle <;> cases c.useMinIsMagnitude <;>
      cases c.useMinIsDistance <;> simp
  have hint : (if (!c.useIntersectionEps) = true then eng.intersect a b none
      else eng.intersect a b (some c.intersectionEps)) = .val r := by
    rw [← hr, h5]; cases c.useIntersectionEps <;> simp
  unfold evaluate
  simp only
  rw [if_neg hin, hint]
  simp only [Outcome.val_bind]
  rw [if_pos (by rw [hne]; rfl), if_pos (by rw [← h6, hal, hdim]; rfl)]
  rfl

/-- Non-trivial instance of the hypotheses of `C36_rejects_partial`. -/
example : evaluate sampleEngine (run [.setMinDistance 1]) 5 5 = .val false :=
  C36_rejects_partial sampleEngine [.setMinDistance 1] 5 5 (.single (.face 0)) rfl
    (fun h => by cases h.1) rfl (by simp [sampleEngine]) ⟨.face 0, by simp [parts], Or.inr ⟨0, rfl⟩⟩

/-! ## C37 Constraint evaluation on sets is the conjunction over pairs -/

/-- A set and an entity, in either order of the arguments: accepted exactly if each element of the set
is accepted together with the entity. -/
theorem C37_set (c : Constraints) (set : List E) (x : E) :
    (evaluateSet eng c set x = .val true ↔ ∀ e ∈ set, evaluate eng c e x = .val true) ∧
    (evaluateEntitySet eng c x set = .val true ↔ ∀ e ∈ set, evaluate eng c e x = .val true) :=
  ⟨allOf_true _ _, allOf_true _ _⟩

/-- Two sets: accepted exactly if each pair is. -/
theorem C37_sets (c : Constraints) (set1 set2 : List E) :
    evaluateSets eng c set1 set2 = .val true ↔
      ∀ a ∈ set1, ∀ b ∈ set2, evaluate eng c b a = .val true := by
  unfold evaluateSets
  rw [allOf_true]
  exact forall₂_congr fun a _ => (C37_set eng c set2 a).2

/-- The result does not depend on the order of the elements, provided that no evaluation fails. -/
theorem C37_order (c : Constraints) (s1 s1' s2 s2' : List E) (h1 : s1.Perm s1') (h2 : s2.Perm s2')
    (hv : ∀ a ∈ s1, ∀ b ∈ s2, (evaluate eng c b a).isVal) :
    evaluateSets eng c s1 s2 = evaluateSets eng c s1' s2' := by
  have key : ∀ t1 t2 : List E, (∀ a ∈ t1, ∀ b ∈ t2, (evaluate eng c b a).isVal) →
      ∃ r, evaluateSets eng c t1 t2 = .val r := by
    intro t1 t2 h
    have : (evaluateSets eng c t1 t2).isVal :=
      allOf_isVal _ _ fun a ha => allOf_isVal _ _ fun b hb => h a ha b hb
    cases hr : evaluateSets eng c t1 t2 with
    | val r => exact ⟨r, rfl⟩
    | thrown e => rw [hr] at this; exact this.elim
    | nan => rw [hr] at this; exact this.elim
    | ub => rw [hr] at this; exact this.elim
  obtain ⟨r, hr⟩ := key s1 s2 hv
  obtain ⟨r', hr'⟩ := key s1' s2' fun a ha b hb => hv a (h1.mem_iff.2 ha) b (h2.mem_iff.2 hb)
  have e : evaluateSets eng c s1 s2 = .val true ↔ evaluateSets eng c s1' s2' = .val true := by
    rw [C37_sets, C37_sets]
    constructor
    · intro h a ha b hb; exact h a (h1.mem_iff.2 ha) b (h2.mem_iff.2 hb)
    · intro h a ha b hb; exact h a (h1.mem_iff.1 ha) b (h2.mem_iff.1 hb)
  rw [hr, hr'] at *
  cases r <;> cases r' <;> simp_all

/-- The empty set is admissible. -/
theorem C37_empty (c : Constraints) (x : E) (s : List E) :
    evaluateSet eng c [] x = .val true ∧ evaluateEntitySet eng c x [] = .val true ∧
    evaluateSets eng c [] s = .val true ∧ evaluateSets eng c s [] = .val true := by
  refine ⟨rfl, rfl, rfl, ?_⟩
  rw [C37_sets]
  intro a _ b hb
  cases hb

/-- The set is rejected exactly if some element is rejected and all elements before it are accepted; so
a failing evaluation is reported exactly if no element before it is rejected. -/
theorem C37_first_failure (c : Constraints) (set : List E) (x : E) :
    (evaluateSet eng c set x = .val false ↔
      ∃ l1 e l2, set = l1 ++ e :: l2 ∧ evaluate eng c e x = .val false ∧
        ∀ y ∈ l1, evaluate eng c y x = .val true) ∧
    (∀ l1 e l2, set = l1 ++ e :: l2 → (∀ y ∈ l1, evaluate eng c y x = .val true) →
      ¬ (evaluate eng c e x).isVal → evaluateSet eng c set x = evaluate eng c e x) := by
  refine ⟨allOf_false _ _, ?_⟩
  rintro l1 e l2 rfl h he
  unfold evaluateSet
  induction l1 with
  | nil =>
    simp only [List.nil_append, allOf]
    cases hr : evaluate eng c e x with
    | val b => rw [hr] at he; exact absurd trivial he
    | thrown e => rfl
    | nan => rfl
    | ub => rfl
  | cons a t ih =>
    simp only [List.cons_append, allOf]
    rw [h a List.mem_cons_self]
    exact ih fun y hy => h y (List.mem_cons_of_mem _ hy)

/-- A set and an entity: the result does not depend on the order of the set, provided that no evaluation fails. -/
theorem C37_order_set (c : Constraints) (s s' : List E) (h : s.Perm s') (x : E)
    (hv : ∀ e ∈ s, (evaluate eng c e x).isVal) :
    evaluateSet eng c s x = evaluateSet eng c s' x ∧ evaluateEntitySet eng c x s = evaluateEntitySet eng c x s' := by
  have key : ∀ t : List E, (∀ e ∈ t, (evaluate eng c e x).isVal) → ∃ r, evaluateSet eng c t x = .val r := by
    intro t ht
    have : (evaluateSet eng c t x).isVal := allOf_isVal _ _ ht
    cases hr : evaluateSet eng c t x with
    | val r => exact ⟨r, rfl⟩
    | thrown e => rw [hr] at this; exact this.elim
    | nan => rw [hr] at this; exact this.elim
    | ub => rw [hr] at this; exact this.elim
  have e : evaluateSet eng c s x = evaluateSet eng c s' x := by
    obtain ⟨r, hr⟩ := key s hv
    obtain ⟨r', hr'⟩ := key s' fun e he => hv e (h.mem_iff.2 he)
    have e : evaluateSet eng c s x = .val true ↔ evaluateSet eng c s' x = .val true := by
      rw [(C37_set eng c s x).1, (C37_set eng c s' x).1]
      exact ⟨fun H a ha => H a (h.mem_iff.2 ha), fun H a ha => H a (h.mem_iff.1 ha)⟩
    rw [hr, hr'] at *
    cases r <;> cases r' <;> simp_all
  exact ⟨e, e⟩

/-- Two sets: the pairs are evaluated in the order of the first set, for each of its elements in the order of the
second one; a pair that is rejected or fails determines the result if all pairs before it are accepted. -/
theorem C37_sets_first_failure (c : Constraints) (l1 l2 m1 m2 : List E) (a b : E)
    (h1 : ∀ x ∈ l1, ∀ y ∈ m1 ++ b :: m2, evaluate eng c y x = .val true)
    (h2 : ∀ y ∈ m1, evaluate eng c y a = .val true) (h3 : evaluate eng c b a ≠ .val true) :
    evaluateSets eng c (l1 ++ a :: l2) (m1 ++ b :: m2) = evaluate eng c b a := by
  have aux : ∀ (f : E → Outcome Bool) (l r : List E) (x : E), (∀ y ∈ l, f y = .val true) → f x ≠ .val true →
      allOf f (l ++ x :: r) = f x := by
    intro f l r x hl hx
    induction l with
    | nil =>
      simp only [List.nil_append, allOf]
      cases hr : f x with
      | val b => cases b with
        | true => exact absurd hr hx
        | false => rfl
      | thrown e => rfl
      | nan => rfl
      | ub => rfl
    | cons y t ih =>
      simp only [List.cons_append, allOf]
      rw [hl y List.mem_cons_self]
      exact ih fun z hz => hl z (List.mem_cons_of_mem _ hz)
  have e : evaluateEntitySet eng c a (m1 ++ b :: m2) = evaluate eng c b a := aux _ m1 m2 b h2 h3
  unfold evaluateSets
  rw [aux (fun e => evaluateEntitySet eng c e (m1 ++ b :: m2)) l1 l2 a ?_ (by rw [e]; exact h3), e]
  intro x hx
  exact (C37_set eng c _ x).2.2 (h1 x hx)

/-- Non-trivial instance: of the entities 0, 1, 2, 7 the entity 2 is too close to 4. -/
example : evaluateSet sampleEngine (run [.setMinDistance 3]) [0, 1, 2, 7] 4 = .val false := by
  rw [(C37_first_failure sampleEngine (run [.setMinDistance 3]) [0, 1, 2, 7] 4).1]
  refine ⟨[0, 1], 2, [7], rfl, ?_, ?_⟩
  · simp [evaluate, run, step, init, sampleEngine, isEmptyIntersection, isEmptyGeom, greaterEqual]
    norm_num
  · intro y hy
    simp only [List.mem_cons, List.not_mem_nil, or_false] at hy
    rcases hy with rfl | rfl <;>
      simp [evaluate, run, step, init, sampleEngine, isEmptyIntersection, isEmptyGeom, greaterEqual] <;> norm_num

end Props
