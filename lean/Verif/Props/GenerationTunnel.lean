import Verif.Model.Appl.Example4
import Verif.Props.Generation

/-!
# The network around a tunnel of example 4 (C64, C65, C66)
-/

namespace Props
open Verif Frackit Frackit.Appl
open Spec.Network

variable {P E : Type} {eng : Engine E}

/-! ## Constraints -/

theorem evaluate4 (ops : List Constraints.Op) (d an : ℝ)
    (hd : Spec.Constraints.minDistance ops.reverse = some d)
    (ha : Spec.Constraints.minAngle ops.reverse = some an)
    (hm : Spec.Constraints.minMagnitude ops.reverse = some 0.1)
    (hb : Spec.Constraints.minBoundaryDistance ops.reverse = some 0.1)
    (he : Spec.Constraints.eps ops.reverse = none)
    (hq : Spec.Constraints.allowEquiDim ops.reverse = false) (a b : E) :
    Constraints.evaluate eng (Constraints.run ops) a b = .val true ↔
      Compatible eng d an 0.1 0.1 a b := by
  have e : Spec.Constraints.config ops.reverse
      = ⟨some d, some an, some 0.1, some 0.1, none, false⟩ := by
    unfold Spec.Constraints.config; rw [hd, ha, hm, hb, he, hq]
  rw [C35_accepts_exact eng ops a b (by rw [e]; simp [Spec.Constraints.Config.Inactive]), e]
  rfl

theorem evaluate_ops41 (a b : E) : Constraints.evaluate eng (Constraints.run ops41) a b = .val true ↔
    Compatible eng 1 (5 * Real.pi / 36) 0.1 0.1 a b := by
  refine evaluate4 ops41 _ _ rfl ?_ rfl rfl rfl rfl a b
  simp [ops41, Spec.Constraints.minAngle, toRadians]; ring

theorem evaluate_ops42 (a b : E) : Constraints.evaluate eng (Constraints.run ops42) a b = .val true ↔
    Compatible eng 0.15 (5 * Real.pi / 36) 0.1 0.1 a b := by
  refine evaluate4 ops42 _ _ rfl ?_ rfl rfl rfl rfl a b
  simp [ops42, ops41, Spec.Constraints.minAngle, toRadians]; ring

theorem evaluate_ops43 (a b : E) : Constraints.evaluate eng (Constraints.run ops43) a b = .val true ↔
    Compatible eng 1 (5 * Real.pi / 36) 0.1 0.1 a b := evaluate_ops41 a b

theorem evaluate_ops42Py (a b : E) : Constraints.evaluate eng (Constraints.run ops42Py) a b = .val true ↔
    Compatible eng 0.5 (5 * Real.pi / 36) 0.1 0.1 a b := by
  refine evaluate4 ops42Py _ _ rfl ?_ rfl rfl rfl rfl a b
  simp [ops42Py, ops41, Spec.Constraints.minAngle, toRadians]; ring

theorem evaluate_ops43Py (a b : E) : Constraints.evaluate eng (Constraints.run ops43Py) a b = .val true ↔
    Compatible eng 0.15 (5 * Real.pi / 36) 0.1 0.1 a b := by
  refine evaluate4 ops43Py _ _ rfl ?_ rfl rfl rfl rfl a b
  simp [ops43Py, ops41, Spec.Constraints.minAngle, toRadians]; ring

theorem evaluate_ops4Other (a b : E) : Constraints.evaluate eng (Constraints.run ops4Other) a b = .val true ↔
    Compatible eng 0.25 (Real.pi / 6) 0.1 0.1 a b := by
  refine evaluate4 ops4Other _ _ rfl ?_ rfl rfl rfl rfl a b
  simp [ops4Other, ops41, Spec.Constraints.minAngle, toRadians]; ring

theorem evaluate_ops4Boundary (a b : E) :
    Constraints.evaluate eng (Constraints.run ops4Boundary) a b = .val true ↔
      Compatible eng 1 (Real.pi / 18) 0.1 0.1 a b := by
  refine evaluate4 ops4Boundary _ _ rfl ?_ rfl rfl rfl rfl a b
  simp [ops4Boundary, ops41, Spec.Constraints.minAngle, toRadians]; ring

/-! ## One candidate -/

/-- The vertices keep a distance of 1e-3 from an intersection. -/
def ClearOf (g : TunnelModel P E) (vs : List V3) (is : IsResult) : Prop :=
  ∀ v ∈ vs, ∃ d, g.distance v is = .val d ∧ 1e-3 ≤ d

/-- `face`, of area `a`, is the part of the polygon `c` inside the domain: it is one face, and has at
least a quarter of the area of the polygon. -/
def PartOf (g : TunnelModel P E) (c : P) (face : E) (a : ℝ) : Prop :=
  g.contained c = .val [face] ∧ g.faceArea face = .val a ∧ ∃ full, g.area c = .val full ∧ 0.25 * full ≤ a

/-- The face is part of a polygon, one of those with `D`, that intersects the tunnel, away from its own vertices. -/
def AtTunnel (g : TunnelModel P E) (D : P → Prop) (face : E) (a : ℝ) : Prop :=
  ∃ c is, D c ∧ g.isTunnel c = .val is ∧ ¬ Spec.Constraints.NoIntersection is ∧
    ClearOf g (g.vertices c) is ∧ PartOf g c face a

/-- The face is part of a polygon, one of those with `D`, that intersects the entity `e`, away from the vertices of both. -/
def AtEntity (g : TunnelModel P E) (D : P → Prop) (e face : E) (a : ℝ) : Prop :=
  ∃ c is, D c ∧ g.isEntity c e = .val is ∧ ¬ Spec.Constraints.NoIntersection is ∧
    ClearOf g (g.vertices c) is ∧ ClearOf g (g.verticesOf e) is ∧ PartOf g c face a

/-- Compatibility with the boundaries of the domain. -/
def AtBoundaryOk (eng : Engine E) (g : TunnelModel P E) (face : E) : Prop :=
  Compatible eng 1 (Real.pi / 18) 0.1 0.1 g.tunnel face ∧
  Compatible eng 1 (Real.pi / 18) 0.1 0.1 g.sphere face

theorem anyOf_false {α : Type} (f : α → Outcome Bool) (l : List α) :
    anyOf f l = .val false ↔ ∀ a ∈ l, f a = .val false := by
  induction l with
  | nil => simp [anyOf]
  | cons a t ih =>
    simp only [anyOf, List.mem_cons, forall_eq_or_imp]
    cases h : f a with
    | val b => cases b <;> simp [ih]
    | thrown e => simp
    | nan => simp
    | ub => simp

theorem smallLength_false {g : TunnelModel P E} {vs : List V3} {is : IsResult}
    (h : smallLength g vs is = .val false) : ClearOf g vs is := by
  intro v hv
  have := (anyOf_false _ _).1 h v hv
  obtain ⟨d, hd, h2⟩ := Outcome.bind_eq_val.1 this
  simp only [Outcome.val.injEq, decide_eq_false_iff_not, not_lt] at h2
  exact ⟨d, hd, h2⟩

theorem notEmpty_iff (is : IsResult) (h : isEmptyIntersection is = false) :
    ¬ Spec.Constraints.NoIntersection is := by
  intro hn
  cases is with
  | single g =>
    have := hn g (by simp [Spec.Constraints.parts])
    subst this
    simp [isEmptyIntersection, isEmptyGeom] at h
  | list gs =>
    simp only [isEmptyIntersection, List.all_eq_false] at h
    obtain ⟨x, hx, h⟩ := h
    have := hn x hx
    subst this
    simp [isEmptyGeom] at h

theorem containedPart_some {g : TunnelModel P E} {c : P} {x : E × ℝ}
    (h : containedPart g c = .val (some x)) : PartOf g c x.1 x.2 := by
  unfold containedPart at h
  obtain ⟨faces, hf, h⟩ := Outcome.bind_eq_val.1 h
  match faces, hf, h with
  | [], hf, h => simp at h
  | [face], hf, h =>
    simp only at h
    obtain ⟨a, ha, h⟩ := Outcome.bind_eq_val.1 h
    obtain ⟨full, hfull, h⟩ := Outcome.bind_eq_val.1 h
    by_cases hlt : a < 0.25 * full
    · rw [if_pos hlt] at h; simp at h
    · rw [if_neg hlt] at h
      simp only [Outcome.pure_eq, Outcome.val.injEq, Option.some.injEq] at h
      subst h
      exact ⟨hf, ha, full, hfull, not_lt.1 hlt⟩
  | _ :: _ :: _, hf, h => simp at h

theorem checkAll_true {checks : List (List Constraints.Op × List E)} {face : E} :
    checkAll eng checks face = .val true ↔
      ∀ c ∈ checks, ∀ e ∈ c.2, Constraints.evaluate eng (Constraints.run c.1) e face = .val true := by
  unfold checkAll
  rw [allOf_true]
  refine forall₂_congr fun c _ => ?_
  exact (C37_set eng _ _ _).1

theorem candidate1_some {g : TunnelModel P E} {D : P → Prop} {set1 : List E} {c : P} (hD : D c) {x : E × ℝ}
    (h : candidate1 eng g set1 c = .val (some x)) :
    (∀ e ∈ set1, Compatible eng 1 (5 * Real.pi / 36) 0.1 0.1 e x.1) ∧
    AtTunnel g D x.1 x.2 ∧ AtBoundaryOk eng g x.1 := by
  unfold candidate1 at h
  obtain ⟨is, h1, h⟩ := Outcome.bind_eq_val.1 h
  cases hE : isEmptyIntersection is with
  | true => rw [hE] at h; simp at h
  | false =>
  rw [hE] at h
  simp only [Bool.false_eq_true, if_false] at h
  obtain ⟨small, h2, h⟩ := Outcome.bind_eq_val.1 h
  cases small with
  | true => simp at h
  | false =>
  simp only [Bool.false_eq_true, if_false] at h
  obtain ⟨part, h3, h⟩ := Outcome.bind_eq_val.1 h
  cases part with
  | none => simp at h
  | some p =>
  simp only at h
  obtain ⟨ok, h4, h⟩ := Outcome.bind_eq_val.1 h
  cases ok with
  | false => simp at h
  | true =>
  simp only [if_true, Outcome.pure_eq, Outcome.val.injEq, Option.some.injEq] at h
  have hp := containedPart_some h3
  have h4' := checkAll_true.1 h4
  subst h
  refine ⟨fun e he => (evaluate_ops41 e _).1 (h4' (ops41, set1) (by simp) e he),
    ⟨c, is, hD, h1, notEmpty_iff is hE, smallLength_false h2, hp⟩,
    (evaluate_ops4Boundary _ _).1 (h4' (ops4Boundary, [g.tunnel]) (by simp) _ (by simp)),
    (evaluate_ops4Boundary _ _).1 (h4' (ops4Boundary, [g.sphere]) (by simp) _ (by simp))⟩

theorem candidateNear_some {g : TunnelModel P E} {D : P → Prop} {checks : List (List Constraints.Op × List E)} {e : E}
    {c : P} (hD : D c) {x : E × ℝ} (h : candidateNear eng g checks e c = .val (some x)) :
    (∀ ch ∈ checks, ∀ e ∈ ch.2, Constraints.evaluate eng (Constraints.run ch.1) e x.1 = .val true) ∧
    AtEntity g D e x.1 x.2 ∧ AtBoundaryOk eng g x.1 := by
  unfold candidateNear at h
  obtain ⟨is, h1, h⟩ := Outcome.bind_eq_val.1 h
  cases hE : isEmptyIntersection is with
  | true => rw [hE] at h; simp at h
  | false =>
  rw [hE] at h
  simp only [Bool.false_eq_true, if_false] at h
  obtain ⟨small, h2, h⟩ := Outcome.bind_eq_val.1 h
  cases small with
  | true => simp at h
  | false =>
  simp only [Bool.false_eq_true, if_false] at h
  obtain ⟨smallE, h2', h⟩ := Outcome.bind_eq_val.1 h
  cases smallE with
  | true => simp at h
  | false =>
  simp only [Bool.false_eq_true, if_false] at h
  obtain ⟨part, h3, h⟩ := Outcome.bind_eq_val.1 h
  cases part with
  | none => simp at h
  | some p =>
  simp only at h
  obtain ⟨ok, h4, h⟩ := Outcome.bind_eq_val.1 h
  cases ok with
  | false => simp at h
  | true =>
  simp only [if_true, Outcome.pure_eq, Outcome.val.injEq, Option.some.injEq] at h
  have hp := containedPart_some h3
  have h4' := checkAll_true.1 h4
  subst h
  exact ⟨fun ch hch e he => h4' ch (List.mem_append_left _ hch) e he,
    ⟨c, is, hD, h1, notEmpty_iff is hE, smallLength_false h2, smallLength_false h2', hp⟩,
    (evaluate_ops4Boundary _ _).1 (h4' (ops4Boundary, [g.tunnel]) (by simp) _ (by simp)),
    (evaluate_ops4Boundary _ _).1 (h4' (ops4Boundary, [g.sphere]) (by simp) _ (by simp))⟩

/-! ## The first set -/

/-- The status with id 1. -/
def oneStatus (r a n : ℕ) : SamplingStatus := ⟨r, [(1, a)], [(1, n)]⟩

theorem oneStatus_finished (r a n : ℕ) (order : List (ℕ × ℕ)) (ho : order.Perm (oneStatus r a n).count) :
    (oneStatus r a n).finishedOn order = .val (decide (n ≤ a)) := by
  have : order = [(1, a)] := List.perm_singleton.1 ho
  subst this
  have : (oneStatus r a n).finishedOn [(1, a)] = if a < n then .val false else .val true := rfl
  rw [this]
  split_ifs with h
  · rw [decide_eq_false (by omega)]
  · rw [decide_eq_true (by omega)]

/-- The state of the first loop after `k` passes. -/
structure Stage1Inv (eng : Engine E) (g : TunnelModel P E) (D : P → Prop) (n k : ℕ) (s : Stage E) : Prop where
  status : ∃ r, s.status = oneStatus r s.set.length n ∧ r + s.set.length = k
  bound : s.set.length ≤ n
  self : s.set.Pairwise (Compatible eng 1 (5 * Real.pi / 36) 0.1 0.1)
  good : ∀ x ∈ s.set, (∃ a, AtTunnel g D x a) ∧ AtBoundaryOk eng g x
  area : s.area = (s.set.map (fun e => number (g.faceArea e))).sum

theorem stage1_step {g : TunnelModel P E} {order : SamplingStatus → List (ℕ × ℕ)}
    (ho : ∀ s, (order s).Perm s.count) {draw : ℕ → Outcome P} {n k : ℕ} {s s' : Stage E}
    (H : Stage1Inv eng g (fun c => ∃ k, draw k = .val c) n k s) (hf : s.status.finishedOn (order s.status) = .val false)
    (hb : pass41 eng g draw k s = .val s') : Stage1Inv eng g (fun c => ∃ k, draw k = .val c) n (k + 1) s' := by
  obtain ⟨⟨r, h1, h2⟩, h3, h4, h5, h6⟩ := H
  have hlt : s.set.length < n := by
    have hp := ho s.status
    rw [h1] at hf hp
    rw [oneStatus_finished _ _ _ _ hp] at hf
    simpa using hf
  unfold pass41 at hb
  obtain ⟨c, hdraw, hb⟩ := Outcome.bind_eq_val.1 hb
  obtain ⟨o, hc, hb⟩ := Outcome.bind_eq_val.1 hb
  cases o with
  | none =>
    simp only [Outcome.pure_eq, Outcome.val.injEq] at hb
    subst hb
    refine ⟨⟨r + 1, ?_, ?_⟩, h3, h4, h5, h6⟩
    · show s.status.increaseRejectedCounter = _
      rw [h1]; rfl
    · show r + 1 + s.set.length = k + 1
      omega
  | some x =>
    simp only [Outcome.pure_eq, Outcome.val.injEq] at hb
    subst hb
    obtain ⟨c1, c2, c3⟩ := candidate1_some (D := fun c => ∃ k, draw k = .val c) ⟨k, hdraw⟩ hc
    refine ⟨⟨r, ?_, ?_⟩, ?_, ?_, ?_, ?_⟩
    · show s.status.increaseCounter 1 = _
      rw [h1]
      simp only [Stage.accept, List.length_append, List.length_singleton]
      rfl
    · simp only [Stage.accept, List.length_append, List.length_singleton]; omega
    · simp only [Stage.accept, List.length_append, List.length_singleton]; omega
    · simp only [Stage.accept]
      rw [List.pairwise_append]
      exact ⟨h4, List.pairwise_singleton _ _, fun a ha b hb => by
        rw [List.mem_singleton.1 hb]; exact c1 a ha⟩
    · simp only [Stage.accept]
      intro y hy
      rcases List.mem_append.1 hy with hy | hy
      · exact h5 y hy
      · rw [List.mem_singleton.1 hy]; exact ⟨⟨_, c2⟩, c3⟩
    · obtain ⟨-, -, -, -, -, -, -, ha, -⟩ := c2
      simp only [Stage.accept, List.map_append, List.sum_append, List.map_cons, List.map_nil,
        List.sum_cons, List.sum_nil, h6, ha, number]
      ring

theorem stage1_spec {g : TunnelModel P E} {order : SamplingStatus → List (ℕ × ℕ)}
    (ho : ∀ s, (order s).Perm s.count) {draw : ℕ → Outcome P} {n fuel k : ℕ} {s : Stage E}
    (h : stage1 eng g order draw n fuel = .val (some (k, s))) :
    Stage1Inv eng g (fun c => ∃ k, draw k = .val c) n k s ∧ s.set.length = n := by
  obtain ⟨H, hf⟩ := whileLoop_inv (Stage1Inv eng g (fun c => ∃ k, draw k = .val c) n) (fun k s s' H hf hb => stage1_step ho H hf hb)
    fuel 0 _ ⟨⟨0, rfl, rfl⟩, Nat.zero_le _, .nil, (fun x hx => by cases hx), by simp⟩ k s h
  refine ⟨H, le_antisymm H.bound ?_⟩
  obtain ⟨r, h1, -⟩ := H.status
  have hp := ho s.status
  rw [h1] at hf hp
  rw [oneStatus_finished _ _ _ _ hp] at hf
  simpa using hf

/-! ## The search around an entity -/

theorem search_spec (id max : ℕ) (check : P → Outcome (Option (E × ℝ))) (draw : ℕ → Outcome P)
    (tc : ℕ) (s : Stage E) (htc : tc ≤ max + 1) (r : Stage E × ℕ)
    (h : search id max check draw tc s = .val r) :
    tc ≤ r.2 ∧ r.2 ≤ max + 1 ∧
    ((r.1.set = s.set ∧ r.1.area = s.area ∧ r.2 = max + 1 ∧
        r.1.status.rejected = s.status.rejected + (r.2 - tc) ∧
        ∀ t, tc < t → t ≤ r.2 → ∃ c, draw t = .val c ∧ check c = .val none) ∨
      (∃ c x, tc < r.2 ∧ draw r.2 = .val c ∧ check c = .val (some x) ∧ r.1.set = s.set ++ [x.1] ∧
        r.1.area = s.area + x.2 ∧ r.1.status.rejected + 1 = s.status.rejected + (r.2 - tc) ∧
        ∀ t, tc < t → t < r.2 → ∃ c, draw t = .val c ∧ check c = .val none)) := by
  induction hm : max + 1 - tc generalizing tc s with
  | zero =>
    have : ¬ tc ≤ max := by omega
    rw [search, if_neg this] at h
    simp only [Outcome.pure_eq, Outcome.val.injEq] at h
    subst h
    exact ⟨le_refl _, htc, Or.inl ⟨rfl, rfl, by simp only; omega, by simp, fun t h1 h2 => by
      simp only at h2; omega⟩⟩
  | succ m ih =>
    have : tc ≤ max := by omega
    rw [search, if_pos this] at h
    obtain ⟨c, hc, h⟩ := Outcome.bind_eq_val.1 h
    obtain ⟨o, ho, h⟩ := Outcome.bind_eq_val.1 h
    cases o with
    | none =>
      simp only at h
      obtain ⟨h1, h2, h3⟩ := ih (tc + 1) s.reject (by omega) h (by omega)
      have hrej : s.reject.status.rejected = s.status.rejected + 1 := rfl
      refine ⟨by omega, h2, ?_⟩
      rcases h3 with ⟨a1, a2, a3, a4, a5⟩ | ⟨c', x, a0, a1, a2, a3, a4, a5, a6⟩
      · refine Or.inl ⟨a1, a2, a3, by omega, fun t ht1 ht2 => ?_⟩
        by_cases he : t = tc + 1
        · subst he; exact ⟨c, hc, ho⟩
        · exact a5 t (by omega) ht2
      · refine Or.inr ⟨c', x, by omega, a1, a2, a3, a4, by omega, fun t ht1 ht2 => ?_⟩
        by_cases he : t = tc + 1
        · subst he; exact ⟨c, hc, ho⟩
        · exact a6 t (by omega) ht2
    | some x =>
      simp only [Outcome.pure_eq, Outcome.val.injEq] at h
      subst h
      refine ⟨by simp, by simp only; omega, Or.inr ⟨c, x, by simp, hc, ho, rfl, rfl, ?_, ?_⟩⟩
      · have : (s.accept id x).status.rejected = s.status.rejected := rfl
        simp only [this]; omega
      · intro t h1 h2; simp only at h2; omega

/-- The loop over the entities of the previous set: what it adds are parts `l` (entity searched for,
face, area) with the given properties. -/
theorem stageNear_spec {g : TunnelModel P E} (id max : ℕ)
    (checks : List E → List (List Constraints.Op × List E)) (draw : ℕ → E → ℕ → Outcome P)
    (C : E → E → Prop) (B : E → E → ℝ → Prop)
    (hstep : ∀ S i e t c x, draw i e t = .val c → candidateNear eng g (checks S) e c = .val (some x) →
      (∀ y ∈ S, C y x.1) ∧ B e x.1 x.2) (ents : List E) :
    ∀ (i : ℕ) (s : Stage E) (m : ℕ) (r : Stage E × ℕ), s.set.Pairwise C →
      stageNear eng g id max checks draw i ents (s, m) = .val r →
      ∃ l : List (E × E × ℝ), (l.map (fun p => p.1)).Sublist ents ∧
        r.1.set = s.set ++ l.map (fun p => p.2.1) ∧ r.1.set.Pairwise C ∧
        r.1.area = s.area + (l.map (fun p => p.2.2)).sum ∧
        (∀ p ∈ l, B p.1 p.2.1 p.2.2) ∧
        r.1.status.rejected + l.length ≤ s.status.rejected + ents.length * (max + 1) ∧
        m + ents.length ≤ r.2 + l.length ∧ r.2 ≤ m + ents.length := by
  induction ents with
  | nil =>
    intro i s m r hp h
    simp only [stageNear, Outcome.pure_eq, Outcome.val.injEq] at h
    subst h
    exact ⟨[], List.Sublist.refl _, by simp, hp, by simp, (fun p hp => by cases hp), by simp, by simp,
      by simp⟩
  | cons e t ih =>
    intro i s m r hp h
    simp only [stageNear] at h
    obtain ⟨q, hq, h⟩ := Outcome.bind_eq_val.1 h
    obtain ⟨q1, q2, q3⟩ := search_spec _ _ _ _ 0 s (by omega) q hq
    rcases q3 with ⟨a1, a2, a3, a4, a5⟩ | ⟨c, x, a0, a1, a2, a3, a4, a5, a6⟩
    · obtain ⟨l, b1, b2, b3, b4, b5, b6, b7, b8⟩ := ih _ _ _ _ (by rw [a1]; exact hp) h
      refine ⟨l, b1.cons _, by rw [b2, a1], b3, by rw [b4, a2], b5, ?_, ?_, ?_⟩
      · simp only [List.length_cons]
        rw [a4] at b6
        have : (t.length + 1) * (max + 1) = t.length * (max + 1) + (max + 1) := by ring
        omega
      · rw [if_pos (by omega)] at b7
        simp only [List.length_cons]; omega
      · simp only [List.length_cons]
        split_ifs at b8 <;> omega
    · obtain ⟨g1, g2⟩ := hstep _ _ _ _ _ _ a1 a2
      have hp' : q.1.set.Pairwise C := by
        rw [a3, List.pairwise_append]
        exact ⟨hp, List.pairwise_singleton _ _, fun a ha b hb => by
          rw [List.mem_singleton.1 hb]; exact g1 a ha⟩
      obtain ⟨l, b1, b2, b3, b4, b5, b6, b7, b8⟩ := ih _ _ _ _ hp' h
      refine ⟨(e, x.1, x.2) :: l, by simpa using b1, ?_, b3, ?_, ?_, ?_, ?_, ?_⟩
      · rw [b2, a3]; simp
      · rw [b4, a4]; simp only [List.map_cons, List.sum_cons]; ring
      · intro p hp
        rcases List.mem_cons.1 hp with rfl | hp
        · exact g2
        · exact b5 p hp
      · simp only [List.length_cons]
        have : (t.length + 1) * (max + 1) = t.length * (max + 1) + (max + 1) := by ring
        omega
      · simp only [List.length_cons]
        split_ifs at b7 <;> omega
      · simp only [List.length_cons]
        split_ifs at b8 <;> omega

/-! ## C64 The network -/

/-- `new` contains for some entities of `old` one, part of a polygon drawn for it, that intersects it. -/
def Attached (g : TunnelModel P E) (draw : ℕ → E → ℕ → Outcome P) (old new : List E) : Prop :=
  ∃ l : List (E × E), (l.map Prod.fst).Sublist old ∧ l.map Prod.snd = new ∧
    ∀ p ∈ l, ∃ a, AtEntity g (fun c => ∃ i t, draw i p.1 t = .val c) p.1 p.2 a

theorem sum_number {g : TunnelModel P E} {D : E → P → Prop} (l : List (E × E × ℝ))
    (h : ∀ p ∈ l, AtEntity g (D p.1) p.1 p.2.1 p.2.2) :
    (l.map (fun p => p.2.2)).sum = ((l.map (fun p => p.2.1)).map (fun e => number (g.faceArea e))).sum := by
  rw [List.map_map]
  congr 1
  refine List.map_congr_left fun p hp => ?_
  obtain ⟨-, -, -, -, -, -, -, -, ha, -⟩ := h p hp
  show p.2.2 = number (g.faceArea p.2.1)
  rw [ha]; rfl

/-- The generated network with target count `n` and at most `max` tries, where the constraints among the
entities of the second and third set have the minimum distances `d2` and `d3`. -/
theorem C64_network (g : TunnelModel P E) (order : SamplingStatus → List (ℕ × ℕ))
    (ho : ∀ s, (order s).Perm s.count) (ops2 ops3 : List Constraints.Op) (d2 d3 : ℝ)
    (h2 : ∀ a b, Constraints.evaluate eng (Constraints.run ops2) a b = .val true ↔
      Compatible eng d2 (5 * Real.pi / 36) 0.1 0.1 a b)
    (h3 : ∀ a b, Constraints.evaluate eng (Constraints.run ops3) a b = .val true ↔
      Compatible eng d3 (5 * Real.pi / 36) 0.1 0.1 a b)
    (draw1 : ℕ → Outcome P) (draw2 draw3 : ℕ → E → ℕ → Outcome P) (n max fuel : ℕ) (N : Network4 E)
    (h : network4 eng g order ops2 ops3 draw1 draw2 draw3 n max fuel = .val (some N)) :
    (N.set1.length = n ∧ N.set2.length ≤ n ∧ N.set3.length ≤ N.set2.length) ∧
    MutuallyCompatible eng 1 (5 * Real.pi / 36) 0.1 0.1 N.set1 ∧
    MutuallyCompatible eng d2 (5 * Real.pi / 36) 0.1 0.1 N.set2 ∧
    MutuallyCompatible eng d3 (5 * Real.pi / 36) 0.1 0.1 N.set3 ∧
    (∀ a ∈ N.set1, ∀ b ∈ N.set2, Compatible eng 0.25 (Real.pi / 6) 0.1 0.1 a b) ∧
    (∀ a ∈ N.set1, ∀ b ∈ N.set3, Compatible eng 0.25 (Real.pi / 6) 0.1 0.1 a b) ∧
    (∀ a ∈ N.set2, ∀ b ∈ N.set3, Compatible eng 0.25 (Real.pi / 6) 0.1 0.1 a b) ∧
    (∀ x ∈ N.set1 ++ N.set2 ++ N.set3, AtBoundaryOk eng g x) ∧
    (∀ x ∈ N.set1, ∃ a, AtTunnel g (fun c => ∃ k, draw1 k = .val c) x a) ∧ Attached g draw2 N.set1 N.set2 ∧
    Attached g draw3 N.set2 N.set3 ∧
    N.area = ((N.set1 ++ N.set2 ++ N.set3).map (fun e => number (g.faceArea e))).sum := by
  unfold network4 at h
  obtain ⟨r1, e1, h⟩ := Outcome.bind_eq_val.1 h
  cases r1 with
  | none => simp at h
  | some r1 =>
  obtain ⟨k, s1⟩ := r1
  simp only at h
  obtain ⟨s2, e2, h⟩ := Outcome.bind_eq_val.1 h
  obtain ⟨s3, e3, h⟩ := Outcome.bind_eq_val.1 h
  simp only [Outcome.pure_eq, Outcome.val.injEq, Option.some.injEq] at h
  subst h
  obtain ⟨⟨-, -, i3, i4, i5⟩, i6⟩ := stage1_spec ho e1
  obtain ⟨l2, a1, a2, a3, a4, a5, -, -, -⟩ := stageNear_spec 2 max _ draw2
    (Compatible eng d2 (5 * Real.pi / 36) 0.1 0.1)
    (fun e x a => AtEntity g (fun c => ∃ i t, draw2 i e t = .val c) e x a ∧ AtBoundaryOk eng g x ∧
      ∀ y ∈ s1.set, Compatible eng 0.25 (Real.pi / 6) 0.1 0.1 y x)
    (fun S i e t c x hd hc => by
      obtain ⟨c1, c2, c3⟩ := candidateNear_some (D := fun c => ∃ i t, draw2 i e t = .val c) ⟨i, t, hd⟩ hc
      exact ⟨fun y hy => (h2 _ _).1 (c1 (ops2, S) (by simp) y hy), c2, c3,
        fun y hy => (evaluate_ops4Other _ _).1 (c1 (ops4Other, s1.set) (by simp) y hy)⟩)
    s1.set 0 _ 0 s2 List.Pairwise.nil e2
  obtain ⟨l3, b1, b2, b3, b4, b5, -, -, -⟩ := stageNear_spec 3 max _ draw3
    (Compatible eng d3 (5 * Real.pi / 36) 0.1 0.1)
    (fun e x a => AtEntity g (fun c => ∃ i t, draw3 i e t = .val c) e x a ∧ AtBoundaryOk eng g x ∧
      (∀ y ∈ s1.set, Compatible eng 0.25 (Real.pi / 6) 0.1 0.1 y x) ∧
      ∀ y ∈ s2.1.set, Compatible eng 0.25 (Real.pi / 6) 0.1 0.1 y x)
    (fun S i e t c x hd hc => by
      obtain ⟨c1, c2, c3⟩ := candidateNear_some (D := fun c => ∃ i t, draw3 i e t = .val c) ⟨i, t, hd⟩ hc
      exact ⟨fun y hy => (h3 _ _).1 (c1 (ops3, S) (by simp) y hy), c2, c3,
        fun y hy => (evaluate_ops4Other _ _).1 (c1 (ops4Other, s1.set) (by simp) y hy),
        fun y hy => (evaluate_ops4Other _ _).1 (c1 (ops4Other, s2.1.set) (by simp) y hy)⟩)
    s2.1.set 0 _ _ s3 List.Pairwise.nil e3
  simp only [List.nil_append] at a2 b2
  have m2 : ∀ x ∈ s2.1.set, ∃ p ∈ l2, p.2.1 = x := by
    intro x hx; rw [a2] at hx; simpa using hx
  have m3 : ∀ x ∈ s3.1.set, ∃ p ∈ l3, p.2.1 = x := by
    intro x hx; rw [b2] at hx; simpa using hx
  have len2 : s2.1.set.length ≤ s1.set.length := by
    have := a1.length_le
    rw [a2]; simpa using this
  have len3 : s3.1.set.length ≤ s2.1.set.length := by
    have := b1.length_le
    rw [b2]; simpa using this
  refine ⟨⟨i6, i6 ▸ len2, len3⟩, pairwise_mutual i3, pairwise_mutual a3, pairwise_mutual b3, ?_, ?_, ?_,
    ?_, fun x hx => (i4 x hx).1, ?_, ?_, ?_⟩
  · intro a ha b hb
    obtain ⟨p, hp, rfl⟩ := m2 b hb
    exact (a5 p hp).2.2 a ha
  · intro a ha b hb
    obtain ⟨p, hp, rfl⟩ := m3 b hb
    exact (b5 p hp).2.2.1 a ha
  · intro a ha b hb
    obtain ⟨p, hp, rfl⟩ := m3 b hb
    exact (b5 p hp).2.2.2 a ha
  · intro x hx
    simp only [List.mem_append] at hx
    rcases hx with (hx | hx) | hx
    · exact (i4 x hx).2
    · obtain ⟨p, hp, rfl⟩ := m2 x hx; exact (a5 p hp).2.1
    · obtain ⟨p, hp, rfl⟩ := m3 x hx; exact (b5 p hp).2.1
  · refine ⟨l2.map (fun p => (p.1, p.2.1)), ?_, ?_, ?_⟩
    · simpa [List.map_map, Function.comp_def] using a1
    · simp [a2, List.map_map, Function.comp_def]
    · intro p hp
      obtain ⟨q, hq, rfl⟩ := List.mem_map.1 hp
      exact ⟨_, (a5 q hq).1⟩
  · refine ⟨l3.map (fun p => (p.1, p.2.1)), ?_, ?_, ?_⟩
    · simpa [List.map_map, Function.comp_def] using b1
    · simp [b2, List.map_map, Function.comp_def]
    · intro p hp
      obtain ⟨q, hq, rfl⟩ := List.mem_map.1 hp
      exact ⟨_, (b5 q hq).1⟩
  · simp only [List.map_append, List.sum_append]
    rw [b4, a4, sum_number (D := fun e c => ∃ i t, draw2 i e t = .val c) l2 fun p hp => (a5 p hp).1, sum_number (D := fun e c => ∃ i t, draw3 i e t = .val c) l3 fun p hp => (b5 p hp).1, ← a2, ← b2,
      i5]

/-- Example 4 as it is. -/
theorem C64_example4 (g : TunnelModel P E) (order : SamplingStatus → List (ℕ × ℕ))
    (ho : ∀ s, (order s).Perm s.count) (draw1 : ℕ → Outcome P) (draw2 draw3 : ℕ → E → ℕ → Outcome P)
    (fuel : ℕ) (N : Network4 E) (h : example4 eng g order draw1 draw2 draw3 fuel = .val (some N)) :
    (N.set1.length = 75 ∧ N.set2.length ≤ 75 ∧ N.set3.length ≤ N.set2.length) ∧
    MutuallyCompatible eng 1 (5 * Real.pi / 36) 0.1 0.1 N.set1 ∧
    MutuallyCompatible eng 0.15 (5 * Real.pi / 36) 0.1 0.1 N.set2 ∧
    MutuallyCompatible eng 1 (5 * Real.pi / 36) 0.1 0.1 N.set3 ∧
    (∀ a ∈ N.set1, ∀ b ∈ N.set2, Compatible eng 0.25 (Real.pi / 6) 0.1 0.1 a b) ∧
    (∀ a ∈ N.set1, ∀ b ∈ N.set3, Compatible eng 0.25 (Real.pi / 6) 0.1 0.1 a b) ∧
    (∀ a ∈ N.set2, ∀ b ∈ N.set3, Compatible eng 0.25 (Real.pi / 6) 0.1 0.1 a b) ∧
    (∀ x ∈ N.set1 ++ N.set2 ++ N.set3, AtBoundaryOk eng g x) ∧
    (∀ x ∈ N.set1, ∃ a, AtTunnel g (fun c => ∃ k, draw1 k = .val c) x a) ∧ Attached g draw2 N.set1 N.set2 ∧
    Attached g draw3 N.set2 N.set3 ∧
    N.area = ((N.set1 ++ N.set2 ++ N.set3).map (fun e => number (g.faceArea e))).sum :=
  C64_network g order ho ops42 ops43 _ _ evaluate_ops42 evaluate_ops43 draw1 draw2 draw3 75 500 fuel N h

/-! ## Computations that succeed -/

theorem isEmpty_of_not {is : IsResult} (h : ¬ Spec.Constraints.NoIntersection is) :
    isEmptyIntersection is = false := by
  cases hE : isEmptyIntersection is with
  | false => rfl
  | true =>
    refine absurd ?_ h
    intro g hg
    cases is with
    | single x =>
      rw [List.mem_singleton.1 hg]
      cases x <;> first | rfl | simp [isEmptyIntersection, isEmptyGeom] at hE
    | list gs =>
      simp only [isEmptyIntersection, List.all_eq_true] at hE
      have := hE g hg
      cases g <;> first | rfl | simp [isEmptyGeom] at this

theorem smallLength_of {g : TunnelModel P E} {vs : List V3} {is : IsResult} (h : ClearOf g vs is) :
    smallLength g vs is = .val false := by
  refine (anyOf_false _ _).2 fun v hv => ?_
  obtain ⟨d, hd, h2⟩ := h v hv
  simp [hd, not_lt.2 h2]

theorem containedPart_of {g : TunnelModel P E} {c : P} {face : E} {a : ℝ} (h : PartOf g c face a) :
    containedPart g c = .val (some (face, a)) := by
  obtain ⟨h1, h2, full, h3, h4⟩ := h
  unfold containedPart
  simp only [h1, h2, h3, Outcome.val_bind]
  rw [if_neg (not_lt.2 h4)]
  rfl

/-- A candidate with the required properties is accepted for the first set. -/
theorem candidate1_of {g : TunnelModel P E} {set1 : List E} {c : P} {is : IsResult} {face : E} {a : ℝ}
    (h1 : g.isTunnel c = .val is) (h2 : ¬ Spec.Constraints.NoIntersection is)
    (h3 : ClearOf g (g.vertices c) is) (h4 : PartOf g c face a)
    (h5 : ∀ e ∈ set1, Compatible eng 1 (5 * Real.pi / 36) 0.1 0.1 e face) (h6 : AtBoundaryOk eng g face) :
    candidate1 eng g set1 c = .val (some (face, a)) := by
  have hc : checkAll eng [(ops41, set1), (ops4Boundary, [g.tunnel]), (ops4Boundary, [g.sphere])] face
      = .val true := by
    rw [checkAll_true]
    intro ch hch e he
    simp only [List.mem_cons, List.not_mem_nil, or_false] at hch
    rcases hch with rfl | rfl | rfl
    · exact (evaluate_ops41 _ _).2 (h5 e he)
    · rw [List.mem_singleton.1 he]; exact (evaluate_ops4Boundary _ _).2 h6.1
    · rw [List.mem_singleton.1 he]; exact (evaluate_ops4Boundary _ _).2 h6.2
  unfold candidate1
  simp only [h1, Outcome.val_bind, isEmpty_of_not h2, smallLength_of h3, containedPart_of h4, hc,
    Bool.false_eq_true, if_false, if_true]
  rfl

/-- A candidate with the required properties is accepted for an entity. -/
theorem candidateNear_of {g : TunnelModel P E} {checks : List (List Constraints.Op × List E)} {e : E}
    {c : P} {is : IsResult} {face : E} {a : ℝ}
    (h1 : g.isEntity c e = .val is) (h2 : ¬ Spec.Constraints.NoIntersection is)
    (h3 : ClearOf g (g.vertices c) is) (h3' : ClearOf g (g.verticesOf e) is) (h4 : PartOf g c face a)
    (h5 : ∀ ch ∈ checks, ∀ y ∈ ch.2, Constraints.evaluate eng (Constraints.run ch.1) y face = .val true)
    (h6 : AtBoundaryOk eng g face) :
    candidateNear eng g checks e c = .val (some (face, a)) := by
  have hc : checkAll eng (checks ++ [(ops4Boundary, [g.sphere]), (ops4Boundary, [g.tunnel])]) face
      = .val true := by
    rw [checkAll_true]
    intro ch hch e he
    simp only [List.mem_append, List.mem_cons, List.not_mem_nil, or_false] at hch
    rcases hch with hch | rfl | rfl
    · exact h5 ch hch e he
    · rw [List.mem_singleton.1 he]; exact (evaluate_ops4Boundary _ _).2 h6.2
    · rw [List.mem_singleton.1 he]; exact (evaluate_ops4Boundary _ _).2 h6.1
  unfold candidateNear
  simp only [h1, Outcome.val_bind, isEmpty_of_not h2, smallLength_of h3, smallLength_of h3',
    containedPart_of h4, hc, Bool.false_eq_true, if_false, if_true]
  rfl

theorem candidateNear_empty {g : TunnelModel P E} {checks : List (List Constraints.Op × List E)} {e : E}
    {c : P} {is : IsResult} (h1 : g.isEntity c e = .val is) (h2 : isEmptyIntersection is = true) :
    candidateNear eng g checks e c = .val none := by
  unfold candidateNear
  simp only [h1, Outcome.val_bind, h2, if_true]
  rfl

/-- The first loop if the candidates `c k` are all accepted as `f k`. -/
theorem stage1_all {g : TunnelModel P E} (c : ℕ → P) (f : ℕ → E) (n : ℕ)
    (h : ∀ k < n, ∃ ar, candidate1 eng g ((List.range k).map f) (c k) = .val (some (f k, ar))) :
    ∃ s, stage1 eng g (fun s => s.count) (fun k => .val (c k)) n (n + 1) = .val (some (n, s)) ∧
      s.set = (List.range n).map f := by
  have key : ∀ j k, k + j = n → ∀ a : ℝ,
      ∃ s, whileLoop (fun s : Stage E => s.status.finishedOn s.status.count)
        (pass41 eng g (fun k => .val (c k))) (j + 1) k ⟨(List.range k).map f, oneStatus 0 k n, a⟩
        = .val (some (n, s)) ∧ s.set = (List.range n).map f := by
    intro j
    induction j with
    | zero =>
      intro k hk a
      have : k = n := by omega
      subst this
      refine ⟨⟨(List.range k).map f, oneStatus 0 k k, a⟩, ?_, rfl⟩
      simp only [whileLoop]
      rw [oneStatus_finished _ _ _ _ (List.Perm.refl _)]
      simp
    | succ j ih =>
      intro k hk a
      have hf : (oneStatus 0 k n).finishedOn (oneStatus 0 k n).count = .val false := by
        rw [oneStatus_finished _ _ _ _ (List.Perm.refl _), decide_eq_false (by omega)]
      obtain ⟨ar, har⟩ := h k (by omega)
      have hb : pass41 eng g (fun k => .val (c k)) k ⟨(List.range k).map f, oneStatus 0 k n, a⟩
          = .val ⟨(List.range (k + 1)).map f, oneStatus 0 (k + 1) n, a + ar⟩ := by
        unfold pass41
        simp only [Outcome.val_bind, har, List.range_succ, List.map_append, List.map_cons,
          List.map_nil]
        rfl
      obtain ⟨s, hs, h2⟩ := ih (k + 1) (by omega) (a + ar)
      refine ⟨s, ?_, h2⟩
      rw [whileLoop]
      simp only [hf, hb]
      exact hs
  exact key n 0 (by omega) 0

/-- The loop over the entities if the first candidates are all accepted. -/
theorem stageNear_all {g : TunnelModel P E} (id max : ℕ)
    (checks : List E → List (List Constraints.Op × List E)) (draw : ℕ → E → ℕ → Outcome P) (f : E → E)
    (Q : E → Prop)
    (h : ∀ S i e, (∀ y ∈ S, Q y) → ∃ c a, draw i e 1 = .val c ∧ Q (f e) ∧
      candidateNear eng g (checks S) e c = .val (some (f e, a))) (ents : List E) :
    ∀ (i : ℕ) (s : Stage E) (m : ℕ), (∀ y ∈ s.set, Q y) →
      ∃ r, stageNear eng g id max checks draw i ents (s, m) = .val r ∧
        r.1.set = s.set ++ ents.map f := by
  induction ents with
  | nil => intro i s m _; exact ⟨(s, m), rfl, by simp⟩
  | cons e t ih =>
    intro i s m hQ
    obtain ⟨c, a, h1, h2, h3⟩ := h s.set i e hQ
    have hs : search id max (candidateNear eng g (checks s.set) e) (draw i e) 0 s
        = .val (s.accept id (f e, a), 1) := by
      rw [search, if_pos (Nat.zero_le _)]
      simp only [Nat.zero_add, h1, Outcome.val_bind, h3]
      rfl
    simp only [stageNear, hs, Outcome.val_bind]
    obtain ⟨r, hr, hset⟩ := ih (i + 1) (s.accept id (f e, a)) (if max ≤ 1 then m + 1 else m) (by
      intro y hy
      rcases List.mem_append.1 hy with hy | hy
      · exact hQ y hy
      · rw [List.mem_singleton.1 hy]; exact h2)
    refine ⟨r, hr, ?_⟩
    rw [hset]
    simp [Stage.accept]

/-! ## A concrete network -/

/-- Entities that never intersect: those with remainder 1 modulo 3 have distance 0.3 from each other, all
others have distance 2. -/
noncomputable def gapEngine : Engine ℕ where
  dim := 2
  intersect _ _ _ := .val (.list [.empty])
  magnitude _ := .val 1
  angle _ _ _ := .val 1
  distance a b := .val (if a % 3 = 1 ∧ b % 3 = 1 then 0.3 else 2)
  onBoundary _ _ := .val false
  boundaryDist _ _ := .val 1
  ellipseBoundaryDist _ _ := .val 1

theorem gap_compatible {d a m b : ℝ} {i j : ℕ} (h : d ≤ if i % 3 = 1 ∧ j % 3 = 1 then 0.3 else 2) :
    Compatible gapEngine d a m b i j := by
  refine ⟨.list [.empty], rfl, Or.inl ⟨?_, ?_⟩⟩
  · intro g hg
    simpa [Spec.Constraints.parts] using hg
  · rintro t ht
    cases ht
    exact ⟨_, rfl, h⟩

theorem gap_incompatible {d a m b : ℝ} {i j : ℕ} (h : (if i % 3 = 1 ∧ j % 3 = 1 then 0.3 else 2) < d) :
    ¬ Compatible gapEngine d a m b i j := by
  rintro ⟨r, hr, h2⟩
  simp only [gapEngine, Outcome.val.injEq] at hr
  subst hr
  rcases h2 with ⟨-, h2⟩ | ⟨h2, -⟩
  · obtain ⟨x, hx, h3⟩ := h2 d rfl
    simp only [gapEngine, Outcome.val.injEq] at hx
    rw [← hx] at h3
    exact absurd h (not_lt.2 h3)
  · refine h2 fun g hg => ?_
    simpa [Spec.Constraints.parts] using hg

/-- A model where all polygons are contained in the domain and intersect the tunnel and all entities. -/
noncomputable def gapTunnel : TunnelModel ℕ ℕ where
  tunnel := 0
  sphere := 0
  isTunnel _ := .val (.single (.point ⟨0, 0, 0⟩))
  isEntity _ _ := .val (.single (.point ⟨0, 0, 0⟩))
  vertices _ := [⟨1, 0, 0⟩]
  verticesOf _ := [⟨1, 0, 0⟩]
  distance _ _ := .val 1
  contained c := .val [c]
  faceArea _ := .val 1
  area _ := .val 2

theorem point_nonempty (p : V3) : ¬ Spec.Constraints.NoIntersection (.single (.point p)) := by
  intro h
  have := h (.point p) (by simp [Spec.Constraints.parts])
  cases this

theorem gap_clear (vs : List V3) (is : IsResult) : ClearOf gapTunnel vs is :=
  fun _ _ => ⟨1, rfl, by norm_num⟩

theorem gap_part (c : ℕ) : PartOf gapTunnel c c 1 := ⟨rfl, rfl, 2, rfl, by norm_num⟩

theorem gap_boundary (x : ℕ) : AtBoundaryOk gapEngine gapTunnel x := by
  have : (1 : ℝ) ≤ if 0 % 3 = 1 ∧ x % 3 = 1 then 0.3 else 2 := by
    rw [if_neg (by simp)]; norm_num
  exact ⟨gap_compatible this, gap_compatible this⟩

/-- The network of 75 entities 0, 3, …, 222, for each of which the entities `e + 1` and `e + 2` are
created. -/
theorem gap_network (ops2 ops3 : List Constraints.Op)
    (h2 : ∀ a b : ℕ, a % 3 = 1 → b % 3 = 1 →
      Constraints.evaluate gapEngine (Constraints.run ops2) a b = .val true)
    (h3 : ∀ a b : ℕ, a % 3 = 2 → b % 3 = 2 →
      Constraints.evaluate gapEngine (Constraints.run ops3) a b = .val true) :
    ∃ N, network4 gapEngine gapTunnel (fun s => s.count) ops2 ops3 (fun k => .val (3 * k))
      (fun _ e _ => .val (e / 3 * 3 + 1)) (fun _ e _ => .val (e / 3 * 3 + 2)) 75 500 76 = .val (some N) ∧
      N.set1 = (List.range 75).map (fun k => 3 * k) ∧
      N.set2 = (List.range 75).map (fun k => 3 * k + 1) ∧
      N.set3 = (List.range 75).map (fun k => 3 * k + 2) := by
  have other : ∀ a b : ℕ, ¬ (a % 3 = 1 ∧ b % 3 = 1) →
      Constraints.evaluate gapEngine (Constraints.run ops4Other) a b = .val true := by
    intro a b h
    exact (evaluate_ops4Other _ _).2 (gap_compatible (by rw [if_neg h]; norm_num))
  obtain ⟨s1, e1, f1⟩ := stage1_all (eng := gapEngine) (g := gapTunnel) (fun k => 3 * k) (fun k => 3 * k) 75
    (fun k _ => ⟨_, candidate1_of rfl (point_nonempty _) (gap_clear _ _) (gap_part _) (by
      intro e he
      obtain ⟨i, -, rfl⟩ := List.mem_map.1 he
      exact gap_compatible (by rw [if_neg (by omega)]; norm_num)) (gap_boundary _)⟩)
  obtain ⟨s2, e2, f2⟩ := stageNear_all (eng := gapEngine) (g := gapTunnel) 2 500
    (fun set2 => [(ops4Other, s1.set), (ops2, set2)]) (fun _ e _ => .val (e / 3 * 3 + 1))
    (fun e => e / 3 * 3 + 1) (fun y => y % 3 = 1) (fun S i e hS => ⟨_, 1, rfl, by omega,
      candidateNear_of rfl (point_nonempty _) (gap_clear _ _) (gap_clear _ _) (gap_part _) (by
        intro ch hch y hy
        simp only [List.mem_cons, List.not_mem_nil, or_false] at hch
        rcases hch with rfl | rfl
        · rw [f1] at hy
          obtain ⟨i, -, rfl⟩ := List.mem_map.1 hy
          exact other _ _ (by omega)
        · exact h2 _ _ (hS y hy) (by omega)) (gap_boundary _)⟩) s1.set 0
    ⟨[], s1.status.reset.setTargetCount 2 s1.set.length, s1.area⟩ 0 (fun y hy => by cases hy)
  have q2 : s2.1.set = (List.range 75).map (fun k => 3 * k + 1) := by
    rw [f2, f1, List.nil_append, List.map_map]
    refine List.map_congr_left fun k _ => ?_
    simp only [Function.comp_def]; omega
  obtain ⟨s3, e3, f3⟩ := stageNear_all (eng := gapEngine) (g := gapTunnel) 3 500
    (fun set3 => [(ops4Other, s1.set), (ops4Other, s2.1.set), (ops3, set3)])
    (fun _ e _ => .val (e / 3 * 3 + 2))
    (fun e => e / 3 * 3 + 2) (fun y => y % 3 = 2) (fun S i e hS => ⟨_, 1, rfl, by omega,
      candidateNear_of rfl (point_nonempty _) (gap_clear _ _) (gap_clear _ _) (gap_part _) (by
        intro ch hch y hy
        simp only [List.mem_cons, List.not_mem_nil, or_false] at hch
        rcases hch with rfl | rfl | rfl
        · exact other _ _ (by omega)
        · exact other _ _ (by omega)
        · exact h3 _ _ (hS y hy) (by omega)) (gap_boundary _)⟩) s2.1.set 0
    ⟨[], s2.1.status.reset.setTargetCount 3 s2.1.set.length, s2.1.area⟩ s2.2 (fun y hy => by cases hy)
  refine ⟨⟨s1.set, s2.1.set, s3.1.set, s3.1.area, s3.2⟩, ?_, f1, q2, ?_⟩
  · unfold network4
    rw [e1]
    simp only [Outcome.val_bind]
    rw [e2]
    simp only [Outcome.val_bind]
    have : ((s2.1, s2.2) : Stage ℕ × ℕ) = s2 := rfl
    rw [e3]
    rfl
  · show s3.1.set = _
    rw [f3, q2, List.nil_append, List.map_map]
    refine List.map_congr_left fun k _ => ?_
    simp only [Function.comp_def]; omega

/-! ## C65 The limit on the number of tries -/

/-- After 500 rejected candidates for an entity the search moves on. -/
def C65_full_limit : Prop :=
  ∀ (eng : Engine ℕ) (g : TunnelModel ℕ ℕ) (id : ℕ)
    (checks : List ℕ → List (List Constraints.Op × List ℕ)) (draw : ℕ → ℕ → ℕ → Outcome ℕ) (i e : ℕ)
    (s : Stage ℕ) (m : ℕ) (r : Stage ℕ × ℕ), stageNear eng g id 500 checks draw i [e] (s, m) = .val r →
    r.1.status.rejected ≤ s.status.rejected + 500

/-- A search is reported to be unsuccessful exactly if no entity was found. -/
def C65_full_message : Prop :=
  ∀ (eng : Engine ℕ) (g : TunnelModel ℕ ℕ) (id : ℕ)
    (checks : List ℕ → List (List Constraints.Op × List ℕ)) (draw : ℕ → ℕ → ℕ → Outcome ℕ) (i e : ℕ)
    (s : Stage ℕ) (m : ℕ) (r : Stage ℕ × ℕ), stageNear eng g id 500 checks draw i [e] (s, m) = .val r →
    (r.2 = m + 1 ↔ r.1.set = s.set)

theorem search_rejects (id max : ℕ) (check : P → Outcome (Option (E × ℝ))) (draw : ℕ → Outcome P)
    (j tc : ℕ) (s : Stage E) (hj : tc + j ≤ max + 1)
    (h : ∀ t, tc < t → t ≤ tc + j → ∃ c, draw t = .val c ∧ check c = .val none) :
    search id max check draw tc s = search id max check draw (tc + j)
      ⟨s.set, ⟨s.status.rejected + j, s.status.count, s.status.target⟩, s.area⟩ := by
  induction j generalizing tc s with
  | zero => rfl
  | succ j ih =>
    rw [search, if_pos (by omega)]
    obtain ⟨c, h1, h2⟩ := h (tc + 1) (by omega) (by omega)
    simp only [h1, Outcome.val_bind, h2]
    rw [ih (tc + 1) s.reject (by omega) fun t ht1 ht2 => h t (by omega) (by omega)]
    have e1 : tc + 1 + j = tc + (j + 1) := by omega
    have e2 : s.reject.status.rejected + j = s.status.rejected + (j + 1) := by
      show s.status.rejected + 1 + j = _
      omega
    rw [e1, e2]
    rfl

/-- The model of which only the candidate 501 intersects the entities. -/
noncomputable def lateTunnel : TunnelModel ℕ ℕ :=
  { gapTunnel with isEntity := fun c _ => .val (.single (if c = 501 then .point ⟨0, 0, 0⟩ else .empty)) }

theorem late_reject {checks : List (List Constraints.Op × List ℕ)} {e c : ℕ} (h : c ≠ 501) :
    candidateNear gapEngine lateTunnel checks e c = .val none :=
  candidateNear_empty (is := .single .empty) (by simp [lateTunnel, h]) rfl

theorem late_accept {e : ℕ} :
    candidateNear gapEngine lateTunnel [] e 501 = .val (some (501, 1)) :=
  candidateNear_of (is := .single (.point ⟨0, 0, 0⟩)) (by simp [lateTunnel]) (point_nonempty _)
    (fun _ _ => ⟨1, rfl, by norm_num⟩) (fun _ _ => ⟨1, rfl, by norm_num⟩) ⟨rfl, rfl, 2, rfl, by norm_num⟩
    (fun ch hch => by cases hch) (gap_boundary _)

/-- An entity may be looked for 501 times. -/
theorem C65_limit_disproof : ¬ C65_full_limit := by
  intro h
  have e : search 2 500 (candidateNear gapEngine lateTunnel [] 0) (fun _ => .val 0) 0
      ⟨[], SamplingStatus.init, 0⟩ = .val (⟨[], ⟨501, [], []⟩, 0⟩, 501) := by
    rw [search_rejects 2 500 _ _ 501 0 _ (by norm_num) fun t _ _ => ⟨0, rfl, late_reject (by norm_num)⟩]
    rw [search, if_neg (by norm_num)]
    rfl
  have := h gapEngine lateTunnel 2 (fun _ => []) (fun _ _ _ => .val 0) 0 0 ⟨[], SamplingStatus.init, 0⟩ 0
    (⟨[], ⟨501, [], []⟩, 0⟩, 1) (by
      simp only [stageNear, e, Outcome.val_bind]
      rfl)
  exact absurd this (by decide)

/-- The last candidate may be accepted although the search is reported to be unsuccessful. -/
theorem C65_message_disproof : ¬ C65_full_message := by
  intro h
  have e : search 2 500 (candidateNear gapEngine lateTunnel [] 0) (fun t => .val t) 0
      ⟨[], SamplingStatus.init, 0⟩ = .val (⟨[501], ⟨500, [(2, 1)], [(2, 0)]⟩, 0 + 1⟩, 501) := by
    rw [search_rejects 2 500 _ _ 500 0 _ (by norm_num) fun t _ ht => ⟨t, rfl, late_reject (by omega)⟩]
    rw [search, if_pos (by norm_num)]
    simp only [Outcome.val_bind, Nat.zero_add, Nat.reduceAdd, late_accept]
    rfl
  have := h gapEngine lateTunnel 2 (fun _ => []) (fun _ _ t => .val t) 0 0 ⟨[], SamplingStatus.init, 0⟩ 0
    (⟨[501], ⟨500, [(2, 1)], [(2, 0)]⟩, 0 + 1⟩, 1) (by
      simp only [stageNear, e, Outcome.val_bind]
      rfl)
  have h2 := this.1 rfl
  exact absurd h2 (by simp)

/-- What holds instead: for each entity at most 501 candidates are rejected (at most 500 if one is
accepted); at most one entity is added for each; an unsuccessful search is always reported, and
there is at most one message for each entity.  (Missing: the limit of 500, and that successful searches
are not reported.) -/
theorem C65_limit_partial (g : TunnelModel P E) (id max : ℕ)
    (checks : List E → List (List Constraints.Op × List E)) (draw : ℕ → E → ℕ → Outcome P)
    (i : ℕ) (ents : List E) (s : Stage E) (m : ℕ) (r : Stage E × ℕ)
    (h : stageNear eng g id max checks draw i ents (s, m) = .val r) :
    ∃ new, r.1.set = s.set ++ new ∧ new.length ≤ ents.length ∧
      r.1.status.rejected + new.length ≤ s.status.rejected + ents.length * (max + 1) ∧
      ents.length - new.length ≤ r.2 - m ∧ m ≤ r.2 + new.length ∧ r.2 ≤ m + ents.length := by
  obtain ⟨l, b1, b2, -, -, -, b6, b7, b8⟩ := stageNear_spec (eng := eng) (g := g) id max checks draw
    (fun _ _ => True) (fun _ _ _ => True) (fun _ _ _ _ _ _ _ _ => ⟨fun _ _ => trivial, trivial⟩) ents i s m r
    (List.pairwise_of_forall fun _ _ => trivial) h
  have := b1.length_le
  rw [List.length_map] at this
  exact ⟨_, b2, by simpa using this, by simpa using b6, by simp only [List.length_map]; omega,
    by simp only [List.length_map]; omega, b8⟩

/-! ## C66 The minimum distances intended for the sets -/

/-- The entities of the second set have a minimum distance of 0.5, those of the third one of 0.15 (with
the other constraints as for the first set). -/
def C66_full : Prop :=
  ∀ (eng : Engine ℕ) (g : TunnelModel ℕ ℕ) (order : SamplingStatus → List (ℕ × ℕ)),
    (∀ s, (order s).Perm s.count) →
    ∀ (draw1 : ℕ → Outcome ℕ) (draw2 draw3 : ℕ → ℕ → ℕ → Outcome ℕ) (fuel : ℕ) (N : Network4 ℕ),
      example4 eng g order draw1 draw2 draw3 fuel = .val (some N) →
      MutuallyCompatible eng 0.5 (5 * Real.pi / 36) 0.1 0.1 N.set2 ∧
      MutuallyCompatible eng 0.15 (5 * Real.pi / 36) 0.1 0.1 N.set3

/-- The C++ version does not fulfil it: the distance of 0.15 is set for the second set. -/
theorem C66_disproof : ¬ C66_full := by
  intro h
  obtain ⟨N, hN, -, h2, -⟩ := gap_network ops42 ops43
    (fun a b ha hb => (evaluate_ops42 _ _).2 (gap_compatible (by rw [if_pos ⟨ha, hb⟩]; norm_num)))
    (fun a b ha hb => (evaluate_ops43 _ _).2 (gap_compatible (by rw [if_neg (by omega)]; norm_num)))
  have := (h gapEngine gapTunnel (fun s => s.count) (fun _ => List.Perm.refl _) _ _ _ 76 N hN).1 0 1
    (by rw [h2]; simp) (by rw [h2]; simp) (by norm_num)
  simp only [h2, List.getElem_map, List.getElem_range] at this
  exact gap_incompatible (by rw [if_pos (by norm_num)]; norm_num) this

/-- The Python version fulfils it, together with the statements of `C64_network`. -/
theorem C66_python_partial (g : TunnelModel P E) (order : SamplingStatus → List (ℕ × ℕ))
    (ho : ∀ s, (order s).Perm s.count) (draw1 : ℕ → Outcome P) (draw2 draw3 : ℕ → E → ℕ → Outcome P)
    (fuel : ℕ) (N : Network4 E) (h : example4Py eng g order draw1 draw2 draw3 fuel = .val (some N)) :
    MutuallyCompatible eng 0.5 (5 * Real.pi / 36) 0.1 0.1 N.set2 ∧
    MutuallyCompatible eng 0.15 (5 * Real.pi / 36) 0.1 0.1 N.set3 := by
  obtain ⟨-, -, h2, h3, -⟩ := C64_network g order ho ops42Py ops43Py _ _ evaluate_ops42Py evaluate_ops43Py
    draw1 draw2 draw3 75 500 fuel N h
  exact ⟨h2, h3⟩

/-- What holds for the C++ version: a minimum distance of 0.15 in both sets. -/
theorem C66_cpp_partial (g : TunnelModel P E) (order : SamplingStatus → List (ℕ × ℕ))
    (ho : ∀ s, (order s).Perm s.count) (draw1 : ℕ → Outcome P) (draw2 draw3 : ℕ → E → ℕ → Outcome P)
    (fuel : ℕ) (N : Network4 E) (h : example4 eng g order draw1 draw2 draw3 fuel = .val (some N)) :
    MutuallyCompatible eng 0.15 (5 * Real.pi / 36) 0.1 0.1 N.set2 ∧
    MutuallyCompatible eng 0.15 (5 * Real.pi / 36) 0.1 0.1 N.set3 := by
  obtain ⟨-, -, h2, h3, -⟩ := C64_example4 g order ho draw1 draw2 draw3 fuel N h
  refine ⟨h2, fun i j hi hj hij => ?_⟩
  obtain ⟨r, hr, h4⟩ := h3 i j hi hj hij
  refine ⟨r, hr, ?_⟩
  rcases h4 with ⟨h4, h5⟩ | h4
  · refine Or.inl ⟨h4, fun d hd => ?_⟩
    cases hd
    obtain ⟨x, hx, h6⟩ := h5 1 rfl
    exact ⟨x, hx, le_trans (by norm_num) h6⟩
  · exact Or.inr h4

/-- Non-trivial instance of the hypotheses: a run of the C++ example with three sets of 75 entities. -/
example : ∃ N, example4 gapEngine gapTunnel (fun s => s.count) (fun k => .val (3 * k))
    (fun _ e _ => .val (e / 3 * 3 + 1)) (fun _ e _ => .val (e / 3 * 3 + 2)) 76 = .val (some N) ∧
    N.set3.length = 75 := by
  obtain ⟨N, hN, -, -, h3⟩ := gap_network ops42 ops43
    (fun a b ha hb => (evaluate_ops42 _ _).2 (gap_compatible (by rw [if_pos ⟨ha, hb⟩]; norm_num)))
    (fun a b ha hb => (evaluate_ops43 _ _).2 (gap_compatible (by rw [if_neg (by omega)]; norm_num)))
  exact ⟨N, hN, by rw [h3]; simp⟩

end Props
