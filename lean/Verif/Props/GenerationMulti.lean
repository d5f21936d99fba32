import Verif.Props.Generation
import Verif.Props.PyMatrix

/-!
# Networks with several geometry types generated by example 3 (C62, C63)
-/

namespace Props
open Verif Frackit Frackit.Appl
open Spec.Network

variable {E ω : Type} {eng : Engine E}

/-! ## Constraints -/

theorem config3 (ops : List Constraints.Op) (h : ∃ l, ops = ops31 ++ l)
    (d an : ℝ) (hd : Spec.Constraints.minDistance ops.reverse = some d)
    (ha : Spec.Constraints.minAngle ops.reverse = some an)
    (hm : Spec.Constraints.minMagnitude ops.reverse = some 5)
    (hb : Spec.Constraints.minBoundaryDistance ops.reverse = some 2.5)
    (he : Spec.Constraints.eps ops.reverse = none)
    (hq : Spec.Constraints.allowEquiDim ops.reverse = false) (a b : E) :
    Constraints.evaluate eng (Constraints.run ops) a b = .val true ↔ Compatible eng d an 5 2.5 a b := by
  have e : Spec.Constraints.config ops.reverse = ⟨some d, some an, some 5, some 2.5, none, false⟩ := by
    unfold Spec.Constraints.config; rw [hd, ha, hm, hb, he, hq]
  rw [C35_accepts_exact eng ops a b (by rw [e]; simp [Spec.Constraints.Config.Inactive]), e]
  rfl

theorem evaluate_ops31 (a b : E) : Constraints.evaluate eng (Constraints.run ops31) a b = .val true ↔
    Compatible eng 2.5 (5 * Real.pi / 36) 5 2.5 a b := by
  refine config3 ops31 ⟨[], by simp⟩ _ _ rfl ?_ rfl rfl rfl rfl a b
  simp [ops31, Spec.Constraints.minAngle, toRadians]; ring

theorem evaluate_ops32 (a b : E) : Constraints.evaluate eng (Constraints.run ops32) a b = .val true ↔
    Compatible eng 5 (5 * Real.pi / 36) 5 2.5 a b := by
  refine config3 ops32 ⟨_, rfl⟩ _ _ rfl ?_ rfl rfl rfl rfl a b
  simp [ops32, ops31, Spec.Constraints.minAngle, toRadians]; ring

theorem evaluate_ops3Other (a b : E) : Constraints.evaluate eng (Constraints.run ops3Other) a b = .val true ↔
    Compatible eng 2.5 (2 * Real.pi / 9) 5 2.5 a b := by
  refine config3 ops3Other ⟨_, rfl⟩ _ _ rfl ?_ rfl rfl rfl rfl a b
  simp [ops3Other, ops31, Spec.Constraints.minAngle, toRadians]; ring

theorem evaluate_ops3Domain (a b : E) : Constraints.evaluate eng (Constraints.run ops3Domain) a b = .val true ↔
    Compatible eng 2.5 (Real.pi / 12) 5 2.5 a b := by
  refine config3 ops3Domain ⟨_, rfl⟩ _ _ rfl ?_ rfl rfl rfl rfl a b
  simp [ops3Domain, ops31, Spec.Constraints.minAngle, toRadians]; ring

theorem regs_matrixCalls : Spec.Matrix.regs matrixCalls
    = [((1, 1), Constraints.run ops31), ((2, 2), Constraints.run ops32),
        ((1, 2), Constraints.run ops3Other), ((2, 1), Constraints.run ops3Other)] := by
  simp [Spec.Matrix.regs, Spec.Matrix.add, matrixCalls]

theorem regs_pyMatrixCalls : Spec.PyMatrix.regs pyMatrixCalls
    = [((1, 1), Constraints.run ops31), ((2, 2), Constraints.run ops32),
        ((1, 2), Constraints.run ops3Other), ((2, 1), Constraints.run ops3Other)] := by
  simp [Spec.PyMatrix.regs, Spec.PyMatrix.pairsOf, Spec.PyMatrix.prefixPairs, Spec.Matrix.regs, Spec.Matrix.add, pyMatrixCalls]

/-! ## The network -/

/-- Requirements on an entity with respect to the domain. -/
def InDomain (eng : Engine E) (dom : ShapeDomain E) (k : Kind) (x : E) : Prop :=
  (∀ f ∈ dom.faces, Compatible eng 2.5 (Real.pi / 12) 5 2.5 f x) ∧
  Spec.Constraints.AtLeast (dom.containedArea (k, x)) 350

/-- The sum of the areas inside the domain. -/
noncomputable def totalArea (dom : ShapeDomain E) (D Q : List E) : ℝ :=
  (D.map (fun e => number (dom.containedArea (.disk, e)))).sum +
    (Q.map (fun e => number (dom.containedArea (.quad, e)))).sum

/-- The accepted disks `D` and quadrilaterals `Q`. -/
structure NetInv (eng : Engine E) (dom : ShapeDomain E) (P : Kind → E → Prop) (n1 n2 : ℕ)
    (D Q : List E) (area : ℝ) : Prop where
  b1 : D.length ≤ n1
  b2 : Q.length ≤ n2
  self1 : D.Pairwise (Compatible eng 2.5 (5 * Real.pi / 36) 5 2.5)
  self2 : Q.Pairwise (Compatible eng 5 (5 * Real.pi / 36) 5 2.5)
  cross : CrossCompatible eng 2.5 (2 * Real.pi / 9) 5 2.5 D Q
  good1 : ∀ x ∈ D, P .disk x ∧ InDomain eng dom .disk x
  good2 : ∀ x ∈ Q, P .quad x ∧ InDomain eng dom .quad x
  area : area = totalArea dom D Q

theorem netInv_nil (dom : ShapeDomain E) (P : Kind → E → Prop) (n1 n2 : ℕ) :
    NetInv eng dom P n1 n2 [] [] 0 :=
  ⟨Nat.zero_le _, Nat.zero_le _, .nil, .nil, (fun _ h => by cases h), (fun _ h => by cases h),
    (fun _ h => by cases h), by simp [totalArea]⟩

theorem netInv_disk {dom : ShapeDomain E} {P : Kind → E → Prop} {n1 n2 : ℕ} {D Q : List E} {A a : ℝ}
    (H : NetInv eng dom P n1 n2 D Q A) {x : E} (hn : D.length < n1) (hP : P .disk x)
    (hx : InDomain eng dom .disk x) (ha : dom.containedArea (.disk, x) = .val a)
    (h1 : ∀ e ∈ D, Compatible eng 2.5 (5 * Real.pi / 36) 5 2.5 e x)
    (h2 : ∀ e ∈ Q, Compatible eng 2.5 (2 * Real.pi / 9) 5 2.5 e x) :
    NetInv eng dom P n1 n2 (D ++ [x]) Q (A + a) := by
  refine ⟨by simpa using hn, H.b2, ?_, H.self2, ?_, ?_, H.good2, ?_⟩
  · rw [List.pairwise_append]
    exact ⟨H.self1, List.pairwise_singleton _ _, fun e he b hb => by
      rw [List.mem_singleton.1 hb]; exact h1 e he⟩
  · intro e he b hb
    rcases List.mem_append.1 he with he | he
    · exact H.cross e he b hb
    · rw [List.mem_singleton.1 he]; exact Or.inr (h2 b hb)
  · intro e he
    rcases List.mem_append.1 he with he | he
    · exact H.good1 e he
    · rw [List.mem_singleton.1 he]; exact ⟨hP, hx⟩
  · rw [H.area]; simp only [totalArea, List.map_append, List.sum_append, List.map_cons, List.map_nil,
      List.sum_cons, List.sum_nil, ha, number]; ring

theorem netInv_quad {dom : ShapeDomain E} {P : Kind → E → Prop} {n1 n2 : ℕ} {D Q : List E} {A a : ℝ}
    (H : NetInv eng dom P n1 n2 D Q A) {x : E} (hn : Q.length < n2) (hP : P .quad x)
    (hx : InDomain eng dom .quad x) (ha : dom.containedArea (.quad, x) = .val a)
    (h1 : ∀ e ∈ Q, Compatible eng 5 (5 * Real.pi / 36) 5 2.5 e x)
    (h2 : ∀ e ∈ D, Compatible eng 2.5 (2 * Real.pi / 9) 5 2.5 e x) :
    NetInv eng dom P n1 n2 D (Q ++ [x]) (A + a) := by
  refine ⟨H.b1, by simpa using hn, H.self1, ?_, ?_, H.good1, ?_, ?_⟩
  · rw [List.pairwise_append]
    exact ⟨H.self2, List.pairwise_singleton _ _, fun e he b hb => by
      rw [List.mem_singleton.1 hb]; exact h1 e he⟩
  · intro e he b hb
    rcases List.mem_append.1 hb with hb | hb
    · exact H.cross e he b hb
    · rw [List.mem_singleton.1 hb]; exact Or.inl (h2 e he)
  · intro e he
    rcases List.mem_append.1 he with he | he
    · exact H.good2 e he
    · rw [List.mem_singleton.1 he]; exact ⟨hP, hx⟩
  · rw [H.area]; simp only [totalArea, List.map_append, List.sum_append, List.map_cons, List.map_nil,
      List.sum_cons, List.sum_nil, ha, number]; ring

/-! ## C62 C++ -/

/-- Entity sets that contain the disks `D` with id 1 and the quadrilaterals `Q` with id 2. -/
structure Holds (D Q : List E) (s : EntitySets Kind E) : Prop where
  disks : s.sets .disk = if D.isEmpty then [] else [(D, 1)]
  quads : s.sets .quad = if Q.isEmpty then [] else [(Q, 2)]
  name1 : s.geoms.find? (fun p => p.1 = 1) = if D.isEmpty then none else some (1, "Disk")
  name2 : s.geoms.find? (fun p => p.1 = 2) = if Q.isEmpty then none else some (2, "Quadrilateral_3d")

theorem holds_init : Holds [] [] (EntitySets.init : EntitySets Kind E) := ⟨rfl, rfl, rfl, rfl⟩

theorem holds_apply {D Q : List E} {s : EntitySets Kind E} (H : Holds D Q s) :
    s.applyOnSet kinds 1 = (if D.isEmpty then none else some D) ∧
    s.applyOnSet kinds 2 = (if Q.isEmpty then none else some Q) := by
  obtain ⟨h1, h2, h3, h4⟩ := H
  constructor
  · unfold EntitySets.applyOnSet
    rw [h3]
    cases hD : D.isEmpty with
    | true => rfl
    | false => simp [EntitySets.findSet, kinds, h1, hD]
  · unfold EntitySets.applyOnSet
    rw [h4]
    cases hQ : Q.isEmpty with
    | true => rfl
    | false =>
      cases hD : D.isEmpty with
      | true => simp [EntitySets.findSet, kinds, h1, h2, hD, hQ]
      | false => simp [EntitySets.findSet, kinds, h1, h2, hD, hQ]

theorem holds_export {D Q : List E} {s : EntitySets Kind E} (H : Holds D Q s) :
    s.exportAll kinds = D ++ Q := by
  obtain ⟨h1, h2, -, -⟩ := H
  cases D <;> cases Q <;> simp_all [EntitySets.exportAll, kinds]

theorem holds_addDisk {D Q : List E} {s : EntitySets Kind E} (H : Holds D Q s) (x : E) :
    (s.addPointer Kind.name kinds .disk x 1).1 = .val () ∧
    Holds (D ++ [x]) Q (s.addPointer Kind.name kinds .disk x 1).2 := by
  obtain ⟨h1, h2, h3, h4⟩ := H
  have hf : kinds.find? (fun k' => k'.name = Kind.disk.name) = some Kind.disk := rfl
  unfold EntitySets.addPointer
  rw [hf]
  simp only [if_true]
  unfold EntitySets.addEntity
  rw [h3]
  cases hD : D.isEmpty with
  | true =>
    simp only [if_true, true_and]
    have hD' : D = [] := List.isEmpty_iff.1 hD
    subst hD'
    refine ⟨?_, ?_, ?_, ?_⟩
    · simp [h1]
    · simp [h2]
    · rw [List.find?_append, h3]; rfl
    · rw [List.find?_append, h4]; cases Q <;> rfl
  | false =>
    simp only [Bool.false_eq_true, if_false, Kind.name, ne_eq, not_true_eq_false]
    rw [h1, hD]
    simp only [Bool.false_eq_true, if_false, EntitySets.pushFirst, if_true, true_and]
    refine ⟨?_, ?_, ?_, ?_⟩
    · simp
    · simp [h2]
    · rw [h3, hD]; simp
    · exact h4

theorem holds_addQuad {D Q : List E} {s : EntitySets Kind E} (H : Holds D Q s) (x : E) :
    (s.addPointer Kind.name kinds .quad x 2).1 = .val () ∧
    Holds D (Q ++ [x]) (s.addPointer Kind.name kinds .quad x 2).2 := by
  obtain ⟨h1, h2, h3, h4⟩ := H
  have hf : kinds.find? (fun k' => k'.name = Kind.quad.name) = some Kind.quad := rfl
  unfold EntitySets.addPointer
  rw [hf]
  simp only [if_true]
  unfold EntitySets.addEntity
  rw [h4]
  cases hQ : Q.isEmpty with
  | true =>
    simp only [if_true, true_and]
    have hQ' : Q = [] := List.isEmpty_iff.1 hQ
    subst hQ'
    refine ⟨?_, ?_, ?_, ?_⟩
    · simp [h1]
    · simp [h2]
    · rw [List.find?_append, h3]; cases D <;> rfl
    · rw [List.find?_append, h4]; rfl
  | false =>
    simp only [Bool.false_eq_true, if_false, Kind.name, ne_eq, not_true_eq_false]
    rw [h2, hQ]
    simp only [Bool.false_eq_true, if_false, EntitySets.pushFirst, if_true, true_and]
    refine ⟨?_, ?_, ?_, ?_⟩
    · simp [h1]
    · simp
    · exact h3
    · rw [h4, hQ]; simp

/-- The sampler of the example. -/
structure SamplerOk (m : MultiSampler Kind Unit ℕ) : Prop where
  disk : m.samplers .disk = [((), 1)]
  quad : m.samplers .quad = [((), 2)]
  ids : m.strategy.ids = [1, 2]
  st : m.strategy.st < 2

/-- The sampler returns a disk with id 1 or a quadrilateral with id 2. -/
theorem samplerOk_call (draw : Kind → ω → Outcome E × ω) (m : MultiSampler Kind Unit ℕ) (w : ω)
    (H : SamplerOk m) :
    let r := MultiSampler.call Strategy.nextSequential
      (fun k (_ : Unit) w => ((draw k w).1 >>= fun e => .val (k, e), (draw k w).2)) kinds m w
    SamplerOk r.2.1 ∧ ∀ x, r.1 = .val x →
      (draw x.2.1 w).1 = .val x.2.2 ∧ (x.1 = 1 ∧ x.2.1 = .disk ∨ x.1 = 2 ∧ x.2.1 = .quad) := by
  obtain ⟨h1, h2, h3, h4⟩ := H
  obtain ⟨sm, ids, st⟩ := m
  simp only at h1 h2 h3 h4
  subst h3
  have hs : st = 0 ∨ st = 1 := by omega
  intro r
  rcases hs with hs | hs
  · have hr : r = MultiSampler.call Strategy.nextSequential
      (fun k (_ : Unit) w => ((draw k w).1 >>= fun e => .val (k, e), (draw k w).2)) kinds ⟨sm, [1, 2], st⟩ w := rfl
    rw [hs] at hr
    unfold MultiSampler.call at hr
    have hse : (⟨sm, [1, 2], 0⟩ : MultiSampler Kind Unit ℕ).search kinds 1 = some (.disk, ()) := by simp [MultiSampler.search, kinds, h1]
    simp only [Strategy.nextSequential, List.isEmpty_cons, Bool.false_eq_true, if_false,
      List.getElem?_cons_zero, hse, List.length_cons, List.length_nil] at hr
    cases hd : (draw .disk w).1 with
    | val e =>
      simp only [hd, Outcome.val_bind] at hr
      rw [hr]
      refine ⟨⟨h1, h2, rfl, by norm_num⟩, ?_⟩
      intro x hx
      simp only [Outcome.val.injEq] at hx
      rw [← hx]
      exact ⟨hd, Or.inl ⟨rfl, rfl⟩⟩
    | thrown e => rw [hd] at hr; rw [hr]; exact ⟨⟨h1, h2, rfl, by norm_num⟩, fun x hx => by cases hx⟩
    | nan => rw [hd] at hr; rw [hr]; exact ⟨⟨h1, h2, rfl, by norm_num⟩, fun x hx => by cases hx⟩
    | ub => rw [hd] at hr; rw [hr]; exact ⟨⟨h1, h2, rfl, by norm_num⟩, fun x hx => by cases hx⟩
  · have hr : r = MultiSampler.call Strategy.nextSequential
      (fun k (_ : Unit) w => ((draw k w).1 >>= fun e => .val (k, e), (draw k w).2)) kinds ⟨sm, [1, 2], st⟩ w := rfl
    rw [hs] at hr
    unfold MultiSampler.call at hr
    have hse : (⟨sm, [1, 2], 1⟩ : MultiSampler Kind Unit ℕ).search kinds 2 = some (.quad, ()) := by simp [MultiSampler.search, kinds, h1, h2]
    simp only [Strategy.nextSequential, List.isEmpty_cons, Bool.false_eq_true, if_false,
      List.getElem?_cons_succ, List.getElem?_cons_zero, hse, List.length_cons, List.length_nil] at hr
    cases hd : (draw .quad w).1 with
    | val e =>
      simp only [hd, Outcome.val_bind] at hr
      rw [hr]
      refine ⟨⟨h1, h2, rfl, by norm_num⟩, ?_⟩
      intro x hx
      simp only [Outcome.val.injEq] at hx
      rw [← hx]
      exact ⟨hd, Or.inr ⟨rfl, rfl⟩⟩
    | thrown e => rw [hd] at hr; rw [hr]; exact ⟨⟨h1, h2, rfl, by norm_num⟩, fun x hx => by cases hx⟩
    | nan => rw [hd] at hr; rw [hr]; exact ⟨⟨h1, h2, rfl, by norm_num⟩, fun x hx => by cases hx⟩
    | ub => rw [hd] at hr; rw [hr]; exact ⟨⟨h1, h2, rfl, by norm_num⟩, fun x hx => by cases hx⟩

/-- The state of the loop after `k` passes. -/
structure GenInv (eng : Engine E) (dom : ShapeDomain E) (draw : Kind → ω → Outcome E × ω) (n1 n2 k : ℕ)
    (s : MultiState E ω) : Prop where
  sampler : SamplerOk s.sampler
  net : ∃ D Q r, Holds D Q s.sets ∧ s.status = twoStatus r D.length Q.length n1 n2 ∧
    r + D.length + Q.length = k ∧
    NetInv eng dom (fun k x => ∃ w, (draw k w).1 = .val x) n1 n2 D Q s.area

theorem genInv_init (dom : ShapeDomain E) (draw : Kind → ω → Outcome E × ω) (w : ω) (n1 n2 : ℕ) :
    GenInv eng dom draw n1 n2 0 (MultiState.init draw w n1 n2) :=
  ⟨⟨rfl, rfl, rfl, by show 0 < 2; norm_num⟩, [], [], 0, holds_init, rfl, rfl, netInv_nil dom _ n1 n2⟩

theorem matrix_sets {D Q : List E} {s : EntitySets Kind E} (H : Holds D Q s) (x : E) :
    ((Matrix.run matrixCalls).evaluate (Constraints.evaluateSet eng) (s.applyOnSet kinds) x 1 = .val true →
      (∀ e ∈ D, Compatible eng 2.5 (5 * Real.pi / 36) 5 2.5 e x) ∧
      (∀ e ∈ Q, Compatible eng 2.5 (2 * Real.pi / 9) 5 2.5 e x)) ∧
    ((Matrix.run matrixCalls).evaluate (Constraints.evaluateSet eng) (s.applyOnSet kinds) x 2 = .val true →
      (∀ e ∈ Q, Compatible eng 5 (5 * Real.pi / 36) 5 2.5 e x) ∧
      (∀ e ∈ D, Compatible eng 2.5 (2 * Real.pi / 9) 5 2.5 e x)) := by
  obtain ⟨h1, h2⟩ := holds_apply H
  have m1 : ∀ e ∈ D, s.applyOnSet kinds 1 = some D := by
    intro e he; rw [h1]; cases D with | nil => cases he | cons => rfl
  have m2 : ∀ e ∈ Q, s.applyOnSet kinds 2 = some Q := by
    intro e he; rw [h2]; cases Q with | nil => cases he | cons => rfl
  simp only [C38_accepts_iff, regs_matrixCalls]
  constructor
  · rintro ⟨-, h⟩
    exact ⟨fun e he => (evaluate_ops31 e x).1 (h 1 _ (by simp) D (m1 e he) e he),
      fun e he => (evaluate_ops3Other e x).1 (h 2 _ (by simp) Q (m2 e he) e he)⟩
  · rintro ⟨-, h⟩
    exact ⟨fun e he => (evaluate_ops32 e x).1 (h 2 _ (by simp) Q (m2 e he) e he),
      fun e he => (evaluate_ops3Other e x).1 (h 1 _ (by simp) D (m1 e he) e he)⟩

theorem genInv_reject {dom : ShapeDomain E} {draw : Kind → ω → Outcome E × ω} {n1 n2 k : ℕ}
    {s : MultiState E ω} (H : GenInv eng dom draw n1 n2 k s) :
    GenInv eng dom draw n1 n2 (k + 1) s.reject := by
  obtain ⟨h1, D, Q, r, h2, h3, h4, h5⟩ := H
  refine ⟨h1, D, Q, r + 1, h2, ?_, by omega, h5⟩
  show s.status.increaseRejectedCounter = _
  rw [h3, twoStatus_rej]

theorem pass3_step {dom : ShapeDomain E} {draw : Kind → ω → Outcome E × ω} {n1 n2 k : ℕ}
    {s s' : MultiState E ω} (H : GenInv eng dom draw n1 n2 k s) (hb : pass3 eng dom draw k s = .val s') :
    GenInv eng dom draw n1 n2 (k + 1) s' := by
  unfold pass3 at hb
  have hs := samplerOk_call draw s.sampler s.rng H.sampler
  simp only at hs
  simp only at hb
  generalize MultiSampler.call Strategy.nextSequential
    (fun k (_ : Unit) w => ((draw k w).1 >>= fun e => .val (k, e), (draw k w).2)) kinds
      s.sampler s.rng = r at hs hb
  obtain ⟨ro, rm, rw'⟩ := r
  simp only at hs hb
  obtain ⟨hsam, hx⟩ := hs
  obtain ⟨x, hro, hb⟩ := Outcome.bind_eq_val.1 hb
  have H' : GenInv eng dom draw n1 n2 k { s with sampler := rm, rng := rw' } := ⟨hsam, H.net⟩
  obtain ⟨hdraw, hid⟩ := hx x hro
  obtain ⟨done, h1, hb⟩ := Outcome.bind_eq_val.1 hb
  cases done with
  | true =>
    simp only [if_true, Outcome.pure_eq, Outcome.val.injEq] at hb
    rw [← hb]; exact genInv_reject H'
  | false =>
  simp only [Bool.false_eq_true, if_false] at hb
  obtain ⟨area, h2, hb⟩ := Outcome.bind_eq_val.1 hb
  by_cases ha : area < 350
  · rw [if_pos ha] at hb
    simp only [Outcome.pure_eq, Outcome.val.injEq] at hb
    rw [← hb]; exact genInv_reject H'
  rw [if_neg ha] at hb
  obtain ⟨b1, h3, hb⟩ := Outcome.bind_eq_val.1 hb
  cases b1 with
  | false =>
    simp only [Bool.not_false, if_true, Outcome.pure_eq, Outcome.val.injEq] at hb
    rw [← hb]; exact genInv_reject H'
  | true =>
  simp only [Bool.not_true, Bool.false_eq_true, if_false] at hb
  obtain ⟨b2, h4, hb⟩ := Outcome.bind_eq_val.1 hb
  cases b2 with
  | false =>
    simp only [Bool.not_false, if_true, Outcome.pure_eq, Outcome.val.injEq] at hb
    rw [← hb]; exact genInv_reject H'
  | true =>
  simp only [Bool.not_true, Bool.false_eq_true, if_false] at hb
  obtain ⟨id, kind, e⟩ := x
  simp only at hdraw hid h1 h2 h3 h4 hb
  obtain ⟨-, D, Q, r, g1, g2, g3, g4⟩ := H
  have hdom : InDomain eng dom kind e :=
    ⟨fun f hf => (evaluate_ops3Domain f e).1 ((C37_set eng _ _ _).1.1 h4 f hf), area, h2, not_lt.1 ha⟩
  rcases hid with ⟨rfl, rfl⟩ | ⟨rfl, rfl⟩
  · obtain ⟨a1, a2⟩ := holds_addDisk g1 e
    generalize hadd : s.sets.addPointer Kind.name kinds Kind.disk e 1 = o at hb a1 a2
    obtain ⟨o1, o2⟩ := o
    simp only at a1 a2 hb
    subst a1
    simp only [Outcome.pure_eq, Outcome.val.injEq] at hb
    rw [← hb]
    rw [g2, twoStatus_id1] at h1
    simp only [Outcome.val.injEq, decide_eq_false_iff_not, not_le] at h1
    obtain ⟨c1, c2⟩ := (matrix_sets (eng := eng) g1 e).1 h3
    refine ⟨hsam, D ++ [e], Q, r, a2, ?_, ?_, netInv_disk g4 h1 ⟨_, hdraw⟩ hdom h2 c1 c2⟩
    · simp only [g2, twoStatus_inc1, List.length_append, List.length_singleton]
    · simp only [List.length_append, List.length_singleton]; omega
  · obtain ⟨a1, a2⟩ := holds_addQuad g1 e
    generalize hadd : s.sets.addPointer Kind.name kinds Kind.quad e 2 = o at hb a1 a2
    obtain ⟨o1, o2⟩ := o
    simp only at a1 a2 hb
    subst a1
    simp only [Outcome.pure_eq, Outcome.val.injEq] at hb
    rw [← hb]
    rw [g2, twoStatus_id2] at h1
    simp only [Outcome.val.injEq, decide_eq_false_iff_not, not_le] at h1
    obtain ⟨c1, c2⟩ := (matrix_sets (eng := eng) g1 e).2 h3
    refine ⟨hsam, D, Q ++ [e], r, a2, ?_, ?_, netInv_quad g4 h1 ⟨_, hdraw⟩ hdom h2 c1 c2⟩
    · simp only [g2, twoStatus_inc2, List.length_append, List.length_singleton]
    · simp only [List.length_append, List.length_singleton]; omega

theorem genInv_finished {order : SamplingStatus → List (ℕ × ℕ)} (ho : ∀ s, (order s).Perm s.count)
    {dom : ShapeDomain E} {draw : Kind → ω → Outcome E × ω} {n1 n2 k : ℕ} {s : MultiState E ω}
    {D Q : List E} {r : ℕ} (h : s.status = twoStatus r D.length Q.length n1 n2) :
    s.status.finishedOn (order s.status) = .val (decide (n1 ≤ D.length ∧ n2 ≤ Q.length)) := by
  have h' := ho s.status
  rw [h] at h' ⊢
  exact twoStatus_finished _ _ _ _ _ _ h'

/-- The loop of example 3 with any target counts, for all candidates and behaviours of the geometric
computations: when it is left, the entity sets contain exactly as many disks and quadrilaterals as
desired, all of them compatible with each other and with the boundary of the domain, with an area of at
least 350 inside the domain each; the area is the sum of these areas; each candidate has been accepted
or counted as rejected; and the exported entities are the disks followed by the quadrilaterals. -/
theorem C62_network (dom : ShapeDomain E) (order : SamplingStatus → List (ℕ × ℕ))
    (ho : ∀ s, (order s).Perm s.count) (draw : Kind → ω → Outcome E × ω) (w : ω) (n1 n2 fuel k : ℕ)
    (s : MultiState E ω) (h : loop3 eng dom order draw w n1 n2 fuel = .val (some (k, s))) :
    ∃ D Q : List E, D.length = n1 ∧ Q.length = n2 ∧ s.status.rejected + n1 + n2 = k ∧
      s.sets.exportAll kinds = D ++ Q ∧
      (s.sets.numEntitiesOf kinds 1 = n1 ∧ s.sets.numEntitiesOf kinds 2 = n2) ∧
      MutuallyCompatible eng 2.5 (5 * Real.pi / 36) 5 2.5 D ∧
      MutuallyCompatible eng 5 (5 * Real.pi / 36) 5 2.5 Q ∧
      CrossCompatible eng 2.5 (2 * Real.pi / 9) 5 2.5 D Q ∧
      (∀ x, x ∈ D ∨ x ∈ Q → ∀ f ∈ dom.faces, Compatible eng 2.5 (Real.pi / 12) 5 2.5 f x) ∧
      (∀ x ∈ D, (∃ w, (draw .disk w).1 = .val x) ∧ ∃ a, dom.containedArea (.disk, x) = .val a ∧ 350 ≤ a) ∧
      (∀ x ∈ Q, (∃ w, (draw .quad w).1 = .val x) ∧ ∃ a, dom.containedArea (.quad, x) = .val a ∧ 350 ≤ a) ∧
      s.area = (D.map (fun e => number (dom.containedArea (.disk, e)))).sum +
        (Q.map (fun e => number (dom.containedArea (.quad, e)))).sum := by
  obtain ⟨H, hf⟩ := whileLoop_inv (GenInv eng dom draw n1 n2)
    (fun k s s' H _ hb => pass3_step H hb) fuel 0 _ (genInv_init _ _ _ _ _) k s h
  obtain ⟨-, D, Q, r, g1, g2, g3, g4⟩ := H
  rw [genInv_finished (dom := dom) (draw := draw) (k := k) ho g2] at hf
  simp only [Outcome.val.injEq, decide_eq_true_eq] at hf
  have e1 : D.length = n1 := le_antisymm g4.b1 hf.1
  have e2 : Q.length = n2 := le_antisymm g4.b2 hf.2
  refine ⟨D, Q, e1, e2, ?_, holds_export g1, ?_, pairwise_mutual g4.self1, pairwise_mutual g4.self2,
    g4.cross, ?_, fun x hx => ⟨(g4.good1 x hx).1, (g4.good1 x hx).2.2⟩,
    fun x hx => ⟨(g4.good2 x hx).1, (g4.good2 x hx).2.2⟩, g4.area⟩
  · rw [g2]; show r + n1 + n2 = k; omega
  · obtain ⟨a1, a2⟩ := holds_apply g1
    unfold EntitySets.numEntitiesOf
    rw [a1, a2]
    constructor
    · cases D with
      | nil => exact e1
      | cons => exact e1
    · cases Q with
      | nil => exact e2
      | cons => exact e2
  · rintro x (hx | hx)
    exacts [(g4.good1 x hx).2.1, (g4.good2 x hx).2.1]

/-- Example 3: 12 disks and 16 quadrilaterals. -/
theorem C62_example3 (dom : ShapeDomain E) (order : SamplingStatus → List (ℕ × ℕ))
    (ho : ∀ s, (order s).Perm s.count) (draw : Kind → ω → Outcome E × ω) (w : ω) (fuel k : ℕ)
    (s : MultiState E ω) (h : example3 eng dom order draw w fuel = .val (some (k, s))) :
    s.sets.numEntitiesOf kinds 1 = 12 ∧ s.sets.numEntitiesOf kinds 2 = 16 ∧
    (s.sets.exportAll kinds).length = 28 ∧ s.status.rejected + 28 = k ∧ 28 * 350 ≤ s.area := by
  obtain ⟨D, Q, h1, h2, h3, h4, ⟨h5, h6⟩, -, -, -, -, h7, h8, h9⟩ :=
    C62_network dom order ho draw w 12 16 fuel k s h
  have sum : ∀ (kd : Kind) (l : List E),
      (∀ x ∈ l, ∃ a, dom.containedArea (kd, x) = .val a ∧ (350 : ℝ) ≤ a) →
      (l.length : ℝ) * 350 ≤ (l.map (fun e => number (dom.containedArea (kd, e)))).sum := by
    intro kd l hl
    induction l with
    | nil => simp
    | cons a t ih =>
      obtain ⟨v, hv, hle⟩ := hl a (by simp)
      have := ih fun x hx => hl x (by simp [hx])
      have hv' : number (dom.containedArea (kd, a)) = v := by rw [hv]; rfl
      rw [List.map_cons, List.sum_cons, List.length_cons, hv']
      push_cast
      linarith
  have s1 := sum .disk D fun x hx => (h7 x hx).2
  have s2 := sum .quad Q fun x hx => (h8 x hx).2
  refine ⟨h5, h6, ?_, by omega, ?_⟩
  · rw [h4, List.length_append, h1, h2]
  · rw [h1] at s1
    rw [h2] at s2
    rw [h9]
    push_cast at s1 s2
    linarith

theorem isVal3 {ops : List Constraints.Op} {d an : ℝ}
    (hd : Spec.Constraints.minDistance ops.reverse = some d)
    (he : Spec.Constraints.allowEquiDim ops.reverse = false) (a b : E)
    (h : Constraints.evaluate eng (Constraints.run ops) a b = .val true ↔ Compatible eng d an 5 2.5 a b)
    (T : Spec.Constraints.Total eng) (hdim : eng.dim ≤ 2) :
    (Constraints.evaluate eng (Constraints.run ops) a b).isVal := by
  have hact : ¬ (Spec.Constraints.config ops.reverse).Inactive := by
    rintro ⟨h0, -⟩
    change Spec.Constraints.minDistance ops.reverse = none at h0
    rw [hd] at h0
    cases h0
  by_cases hc : Constraints.evaluate eng (Constraints.run ops) a b = .val true
  · rw [hc]; trivial
  · have := (C35_rejects eng ops a b hact T hdim (Or.inl he)).2
      (fun ha => hc ((C35_accepts_iff_partial eng (noNaN_of_total eng T) ops a b hact).2 ha))
    rw [this]; trivial

/-- If all candidates can be sampled and all computations return values, the loop never fails. -/
theorem C62_no_failure (dom : ShapeDomain E) (order : SamplingStatus → List (ℕ × ℕ))
    (ho : ∀ s, (order s).Perm s.count) (draw : Kind → ω → Outcome E × ω) (w : ω) (n1 n2 fuel : ℕ)
    (T : Spec.Constraints.Total eng) (hdim : eng.dim ≤ 2) (hdraw : ∀ k w, (draw k w).1.isVal)
    (harea : ∀ x, (dom.containedArea x).isVal) :
    (loop3 eng dom order draw w n1 n2 fuel).isVal := by
  refine whileLoop_isVal (GenInv eng dom draw n1 n2) ?_ ?_
    (fun k s s' H _ hb => pass3_step H hb) fuel 0 _ (genInv_init _ _ _ _ _)
  · intro k s H
    obtain ⟨-, D, Q, r, -, g2, -⟩ := H
    rw [genInv_finished (dom := dom) (draw := draw) (k := k) ho g2]; trivial
  · intro k s H _
    unfold pass3
    have hs := samplerOk_call draw s.sampler s.rng H.sampler
    have hv : (MultiSampler.call Strategy.nextSequential
        (fun k (_ : Unit) w => ((draw k w).1 >>= fun e => .val (k, e), (draw k w).2)) kinds
        s.sampler s.rng).1.isVal := by
      obtain ⟨h1, h2, h3, h4⟩ := H.sampler
      generalize s.sampler = m at h1 h2 h3 h4
      obtain ⟨sm, ids, st⟩ := m
      simp only at h1 h2 h3 h4
      subst h3
      have hst : st = 0 ∨ st = 1 := by omega
      rcases hst with rfl | rfl
      · have hse : (⟨sm, [1, 2], 0⟩ : MultiSampler Kind Unit ℕ).search kinds 1 = some (.disk, ()) := by
          simp [MultiSampler.search, kinds, h1]
        unfold MultiSampler.call
        simp only [Strategy.nextSequential, List.isEmpty_cons, Bool.false_eq_true, if_false,
          List.getElem?_cons_zero, hse, List.length_cons, List.length_nil]
        have := hdraw .disk s.rng
        cases hd : (draw .disk s.rng).1 with
        | val e => trivial
        | thrown e => rw [hd] at this; exact this.elim
        | nan => rw [hd] at this; exact this.elim
        | ub => rw [hd] at this; exact this.elim
      · have hse : (⟨sm, [1, 2], 1⟩ : MultiSampler Kind Unit ℕ).search kinds 2 = some (.quad, ()) := by
          simp [MultiSampler.search, kinds, h1, h2]
        unfold MultiSampler.call
        simp only [Strategy.nextSequential, List.isEmpty_cons, Bool.false_eq_true, if_false,
          List.getElem?_cons_succ, List.getElem?_cons_zero, hse, List.length_cons, List.length_nil]
        have := hdraw .quad s.rng
        cases hd : (draw .quad s.rng).1 with
        | val e => trivial
        | thrown e => rw [hd] at this; exact this.elim
        | nan => rw [hd] at this; exact this.elim
        | ub => rw [hd] at this; exact this.elim
    simp only at hs ⊢
    generalize MultiSampler.call Strategy.nextSequential
      (fun k (_ : Unit) w => ((draw k w).1 >>= fun e => .val (k, e), (draw k w).2)) kinds
        s.sampler s.rng = r at hs hv
    obtain ⟨ro, rm, rw'⟩ := r
    simp only at hs hv ⊢
    refine isVal_bind hv fun x hx => ?_
    obtain ⟨-, hid⟩ := hs.2 x hx
    obtain ⟨-, D, Q, r, g1, g2, -⟩ := H
    have e31 : ∀ a b : E, (Constraints.evaluate eng (Constraints.run ops31) a b).isVal :=
      fun a b => isVal3 rfl rfl a b (evaluate_ops31 a b) T hdim
    have e32 : ∀ a b : E, (Constraints.evaluate eng (Constraints.run ops32) a b).isVal :=
      fun a b => isVal3 rfl rfl a b (evaluate_ops32 a b) T hdim
    have eo : ∀ a b : E, (Constraints.evaluate eng (Constraints.run ops3Other) a b).isVal :=
      fun a b => isVal3 rfl rfl a b (evaluate_ops3Other a b) T hdim
    have ed : ∀ a b : E, (Constraints.evaluate eng (Constraints.run ops3Domain) a b).isVal :=
      fun a b => isVal3 rfl rfl a b (evaluate_ops3Domain a b) T hdim
    refine isVal_bind ?_ fun done _ => isVal_ite (fun _ => trivial) fun _ => ?_
    · rw [g2]
      rcases hid with ⟨h, -⟩ | ⟨h, -⟩
      · rw [h, twoStatus_id1]; trivial
      · rw [h, twoStatus_id2]; trivial
    refine isVal_bind (harea _) fun area _ => isVal_ite (fun _ => trivial) fun _ => ?_
    refine isVal_bind ?_ fun b1 _ => isVal_ite (fun _ => trivial) fun _ => ?_
    · have hall : ∀ b c, ((x.1, b), c) ∈ Spec.Matrix.regs matrixCalls → ∀ a y : E,
          (Constraints.evaluate eng c a y).isVal := by
        intro b c hbc
        rw [regs_matrixCalls] at hbc
        simp only [List.mem_cons, Prod.mk.injEq, List.not_mem_nil, or_false] at hbc
        rcases hbc with ⟨-, rfl⟩ | ⟨-, rfl⟩ | ⟨-, rfl⟩ | ⟨-, rfl⟩
        exacts [e31, e32, eo, eo]
      have hhas : ∃ b, Spec.Matrix.Has (Spec.Matrix.regs matrixCalls) (x.1, b) := by
        rw [regs_matrixCalls]
        rcases hid with ⟨h, -⟩ | ⟨h, -⟩
        · rw [h]; exact ⟨1, Constraints.run ops31, by simp⟩
        · rw [h]; exact ⟨2, Constraints.run ops32, by simp⟩
      have hr := C38_rejects_iff eng matrixCalls (s.sets.applyOnSet kinds) x.2.2 x.1 hhas
        (fun b c hbc set _ e _ => hall b c hbc e _)
      have ha := C38_accepts_iff eng matrixCalls (s.sets.applyOnSet kinds) x.2.2 x.1
      by_cases hc : (Matrix.run matrixCalls).evaluate (Constraints.evaluateSet eng)
          (s.sets.applyOnSet kinds) x.2.2 x.1 = .val true
      · rw [hc]; trivial
      · have hc' := hc
        rw [ha] at hc
        have : ∃ b c set, ((x.1, b), c) ∈ Spec.Matrix.regs matrixCalls ∧
            s.sets.applyOnSet kinds b = some set ∧ ∃ e ∈ set,
              Constraints.evaluate eng c e x.2.2 = .val false := by
          by_contra hno
          apply hc
          refine ⟨hhas, fun b c hbc set hset e he => ?_⟩
          have hv := hall b c hbc e x.2.2
          cases ho : Constraints.evaluate eng c e x.2.2 with
          | val v =>
            cases v with
            | true => rfl
            | false => exact absurd ⟨b, c, set, hbc, hset, e, he, ho⟩ hno
          | thrown e => rw [ho] at hv; exact hv.elim
          | nan => rw [ho] at hv; exact hv.elim
          | ub => rw [ho] at hv; exact hv.elim
        rw [hr.2 this]; trivial
    refine isVal_bind (evaluateSet_isVal fun e _ => ed e _) fun b2 _ =>
      isVal_ite (fun _ => trivial) fun _ => ?_
    obtain ⟨id, kind, e⟩ := x
    simp only at hid ⊢
    rcases hid with ⟨rfl, rfl⟩ | ⟨rfl, rfl⟩
    · obtain ⟨a1, -⟩ := holds_addDisk g1 e
      generalize s.sets.addPointer Kind.name kinds Kind.disk e 1 = o at a1
      obtain ⟨o1, o2⟩ := o
      simp only at a1
      subst a1
      trivial
    · obtain ⟨a1, -⟩ := holds_addQuad g1 e
      generalize s.sets.addPointer Kind.name kinds Kind.quad e 2 = o at a1
      obtain ⟨o1, o2⟩ := o
      simp only at a1
      subst a1
      trivial

/-- Entities of `sampleEngine` that are far apart are compatible. -/
theorem sample_far {d a m b : ℝ} {i j : ℕ} (h : i + 1 < j ∨ j + 1 < i) (hd : d ≤ |(i : ℝ) - j|) :
    Compatible sampleEngine d a m b i j := by
  refine ⟨.list [.empty], ?_, Or.inl ⟨?_, ?_⟩⟩
  · have h1 : i ≠ j := by omega
    have h2 : i + 1 ≠ j := by omega
    have h3 : j + 1 ≠ i := by omega
    simp only [sampleEngine, if_neg h1, h2, h3, or_self, if_false]
  · intro g hg
    simpa [Spec.Constraints.parts] using hg
  · rintro t ht
    cases ht
    exact ⟨_, rfl, hd⟩

/-- Non-trivial instance: a disk far from the domain boundary is accepted in the first pass. -/
example : ∃ s, loop3 sampleEngine ⟨[100], fun _ => .val 400⟩ (fun s => s.count)
    (fun _ w => (.val (10 * w), w + 1)) 1 1 0 2 = .val (some (1, s)) ∧ s.area = 400 := by
  have e : Constraints.evaluate sampleEngine (Constraints.run ops3Domain) 100 10 = .val true :=
    (evaluate_ops3Domain _ _).2 (sample_far (by norm_num) (by norm_num))
  have h3 : (Matrix.run matrixCalls).evaluate (Constraints.evaluateSet sampleEngine)
      ((EntitySets.init : EntitySets Kind ℕ).applyOnSet kinds) 10 1 = .val true := by
    rw [C38_accepts_iff, regs_matrixCalls]
    refine ⟨⟨1, Constraints.run ops31, by simp⟩, fun b c _ set hset => ?_⟩
    simp [EntitySets.applyOnSet, EntitySets.init] at hset
  have hp : pass3 sampleEngine ⟨[100], fun _ => .val 400⟩ (fun _ w => (.val (10 * w), w + 1)) 0
      (MultiState.init (E := ℕ) (fun _ w => (.val (10 * w), w + 1)) 1 1 0)
      = .val ⟨⟨fun k => match k with | .disk => [((), 1)] | .quad => [((), 2)], [1, 2], 1⟩, 2,
        ((EntitySets.init : EntitySets Kind ℕ).addPointer Kind.name kinds .disk 10 1).2,
        twoStatus 0 1 0 1 0, 0 + 400⟩ := by
    have hc : MultiSampler.call Strategy.nextSequential
        (fun k (_ : Unit) (w : ℕ) => ((Outcome.val (k, 10 * w) : Outcome (Kind × ℕ)), w + 1)) kinds
        (MultiState.init (E := ℕ) (fun _ (w : ℕ) => (.val (10 * w), w + 1)) 1 1 0).sampler 1
        = (.val (1, Kind.disk, 10), ⟨fun k => match k with | .disk => [((), 1)] | .quad => [((), 2)],
            [1, 2], 1⟩, 2) := by
      have : (MultiState.init (E := ℕ) (fun _ (w : ℕ) => (.val (10 * w), w + 1)) 1 1 0).sampler
          = ⟨fun k => match k with | .disk => [((), 1)] | .quad => [((), 2)], [1, 2], 0⟩ := by
        refine congrArg₂ MultiSampler.mk (funext fun k => ?_) rfl
        cases k <;> rfl
      rw [this]
      rfl
    unfold pass3
    have hr : (MultiState.init (E := ℕ) (fun _ (w : ℕ) => (.val (10 * w), w + 1)) 1 1 0).rng = 1 := rfl
    simp only [hr, Outcome.val_bind]
    rw [hc]
    simp only [Outcome.val_bind]
    have h1 : (MultiState.init (E := ℕ) (fun _ (w : ℕ) => (.val (10 * w), w + 1)) 1 1 0).status.finishedId 1
        = .val false := rfl
    have h2 : (MultiState.init (E := ℕ) (fun _ (w : ℕ) => (.val (10 * w), w + 1)) 1 1 0).sets
        = EntitySets.init := rfl
    rw [h1]
    simp only [Outcome.val_bind, Bool.false_eq_true, if_false]
    rw [if_neg (by norm_num), h2, h3]
    simp only [Outcome.val_bind, Bool.not_true, Bool.false_eq_true, if_false, Constraints.evaluateSet, allOf,
      e]
    rfl
  refine ⟨⟨⟨fun k => match k with | .disk => [((), 1)] | .quad => [((), 2)], [1, 2], 1⟩, 2,
        ((EntitySets.init : EntitySets Kind ℕ).addPointer Kind.name kinds .disk 10 1).2,
        twoStatus 0 1 0 1 0, 0 + 400⟩, ?_, by simp⟩
  · unfold loop3
    simp only [whileLoop]
    have f0 : (MultiState.init (E := ℕ) (fun _ (w : ℕ) => (.val (10 * w), w + 1)) 1 1 0).status.finishedOn
        (MultiState.init (E := ℕ) (fun _ (w : ℕ) => (.val (10 * w), w + 1)) 1 1 0).status.count
        = .val false := rfl
    rw [f0]
    simp only [hp]
    have f1 : (twoStatus 0 1 0 1 0).finishedOn (twoStatus 0 1 0 1 0).count = .val true := rfl
    rw [f1]

/-! ## C63 Python -/

theorem pyMatrix_sets (s : PyState E) (x : E) :
    (PyMatrix.evaluate (evalPy eng) (PyMatrix.run pyMatrixCalls) s.dict x 1 = .val true →
      (∀ e ∈ s.disks, Compatible eng 2.5 (5 * Real.pi / 36) 5 2.5 e x) ∧
      (∀ e ∈ s.quads, Compatible eng 2.5 (2 * Real.pi / 9) 5 2.5 e x)) ∧
    (PyMatrix.evaluate (evalPy eng) (PyMatrix.run pyMatrixCalls) s.dict x 2 = .val true →
      (∀ e ∈ s.quads, Compatible eng 5 (5 * Real.pi / 36) 5 2.5 e x) ∧
      (∀ e ∈ s.disks, Compatible eng 2.5 (2 * Real.pi / 9) 5 2.5 e x)) := by
  have hrow : ∀ b, (∃ b', Spec.Matrix.Has (Spec.PyMatrix.regs pyMatrixCalls) (b, b')) ↔ b = 1 ∨ b = 2 := by
    intro b
    rw [regs_pyMatrixCalls]
    constructor
    · rintro ⟨b', c, hc⟩
      simp only [List.mem_cons, Prod.mk.injEq, List.not_mem_nil, or_false] at hc
      omega
    · rintro (rfl | rfl)
      · exact ⟨1, Constraints.run ops31, by simp⟩
      · exact ⟨2, Constraints.run ops32, by simp⟩
  have key := fun id => C40_accepts_iff eng pyMatrixCalls s.dict x id
  constructor
  · intro h
    have h := (key 1).1 h
    simp only [hrow] at h
    rw [regs_pyMatrixCalls] at h
    exact ⟨fun e he => (evaluate_ops31 e x).1 (h 1 _ (by simp) (by simp) s.disks rfl e he),
      fun e he => (evaluate_ops3Other e x).1 (h 2 _ (by simp) (by simp) s.quads rfl e he)⟩
  · intro h
    have h := (key 2).1 h
    simp only [hrow] at h
    rw [regs_pyMatrixCalls] at h
    exact ⟨fun e he => (evaluate_ops32 e x).1 (h 2 _ (by simp) (by simp) s.quads rfl e he),
      fun e he => (evaluate_ops3Other e x).1 (h 1 _ (by simp) (by simp) s.disks rfl e he)⟩

/-- The state of the loop after `k` passes. -/
structure PyInv (eng : Engine E) (dom : ShapeDomain E) (draw : Kind → ℕ → Outcome E) (n1 n2 k : ℕ)
    (s : PyState E) : Prop where
  net : ∃ r, s.status = twoStatus r s.disks.length s.quads.length n1 n2 ∧
    r + s.disks.length + s.quads.length = k
  inv : NetInv eng dom (fun k x => ∃ i, draw k i = .val x) n1 n2 s.disks s.quads s.area

theorem pyInv_reject {dom : ShapeDomain E} {draw : Kind → ℕ → Outcome E} {n1 n2 k : ℕ} {s : PyState E}
    (H : PyInv eng dom draw n1 n2 k s) (b : Bool) :
    PyInv eng dom draw n1 n2 (k + 1) ⟨s.disks, s.quads, s.status.increaseRejectedCounter, b, s.area⟩ := by
  obtain ⟨⟨r, h1, h2⟩, h3⟩ := H
  refine ⟨⟨r + 1, ?_, ?_⟩, h3⟩
  · simp only [h1, twoStatus_rej]
  · simp only; omega

theorem passPy_step {dom : ShapeDomain E} {draw : Kind → ℕ → Outcome E} {n1 n2 k : ℕ}
    {s s' : PyState E} (H : PyInv eng dom draw n1 n2 k s) (hb : passPy eng dom draw k s = .val s') :
    PyInv eng dom draw n1 n2 (k + 1) s' := by
  obtain ⟨D, Q, st, into, A⟩ := s
  unfold passPy at hb
  obtain ⟨x, hx, hb⟩ := Outcome.bind_eq_val.1 hb
  obtain ⟨done, h1, hb⟩ := Outcome.bind_eq_val.1 hb
  cases done with
  | true =>
    simp only [if_true, Outcome.pure_eq, Outcome.val.injEq] at hb
    rw [← hb]; exact pyInv_reject H _
  | false =>
  simp only [Bool.false_eq_true, if_false] at hb
  obtain ⟨area, h2, hb⟩ := Outcome.bind_eq_val.1 hb
  by_cases ha : area < 350
  · rw [if_pos ha] at hb
    simp only [Outcome.pure_eq, Outcome.val.injEq] at hb
    rw [← hb]; exact pyInv_reject H _
  rw [if_neg ha] at hb
  obtain ⟨b1, h3, hb⟩ := Outcome.bind_eq_val.1 hb
  cases b1 with
  | false =>
    simp only [Bool.not_false, if_true, Outcome.pure_eq, Outcome.val.injEq] at hb
    rw [← hb]; exact pyInv_reject H _
  | true =>
  simp only [Bool.not_true, Bool.false_eq_true, if_false] at hb
  obtain ⟨b2, h4, hb⟩ := Outcome.bind_eq_val.1 hb
  cases b2 with
  | false =>
    simp only [Bool.not_false, if_true, Outcome.pure_eq, Outcome.val.injEq] at hb
    rw [← hb]; exact pyInv_reject H _
  | true =>
  simp only [Bool.not_true, Bool.false_eq_true, if_false, Outcome.pure_eq, Outcome.val.injEq] at hb
  obtain ⟨⟨r, g1, g2⟩, g3⟩ := H
  simp only at g1 g2 g3 h1 h2 h3 h4 hx
  have hfaces : ∀ f ∈ dom.faces, Compatible eng 2.5 (Real.pi / 12) 5 2.5 f x :=
    fun f hf => (evaluate_ops3Domain f x).1 ((pyEval_true eng _ _ _).1 h4 f hf)
  rw [← hb]
  cases into with
  | true =>
    simp only [if_true] at h1 h2 h3 hx
    rw [g1, twoStatus_id1] at h1
    simp only [Outcome.val.injEq, decide_eq_false_iff_not, not_le] at h1
    obtain ⟨c1, c2⟩ := (pyMatrix_sets (eng := eng) _ x).1 h3
    refine ⟨⟨r, ?_, ?_⟩, ?_⟩
    · simp only [if_true, g1, twoStatus_inc1, List.length_append, List.length_singleton]
    · simp only [if_true, List.length_append, List.length_singleton]; omega
    · simp only [if_true]
      exact netInv_disk g3 h1 ⟨_, hx⟩ ⟨hfaces, area, h2, not_lt.1 ha⟩ h2 c1 c2
  | false =>
    simp only [Bool.false_eq_true, if_false] at h1 h2 h3 hx
    rw [g1, twoStatus_id2] at h1
    simp only [Outcome.val.injEq, decide_eq_false_iff_not, not_le] at h1
    obtain ⟨c1, c2⟩ := (pyMatrix_sets (eng := eng) _ x).2 h3
    have h21 : (2 : ℕ) ≠ 1 := by norm_num
    refine ⟨⟨r, ?_, ?_⟩, ?_⟩
    · simp only [Bool.false_eq_true, if_false, h21, g1, twoStatus_inc2, List.length_append,
        List.length_singleton]
    · simp only [Bool.false_eq_true, if_false, h21, List.length_append, List.length_singleton]; omega
    · simp only [Bool.false_eq_true, if_false, h21]
      exact netInv_quad g3 h1 ⟨_, hx⟩ ⟨hfaces, area, h2, not_lt.1 ha⟩ h2 c1 c2

/-- The same for the Python version of example 3, which uses the Python implementations of the
constraints matrix and of constraints on lists. -/
theorem C63_network (dom : ShapeDomain E) (order : SamplingStatus → List (ℕ × ℕ))
    (ho : ∀ s, (order s).Perm s.count) (draw : Kind → ℕ → Outcome E) (n1 n2 fuel k : ℕ)
    (s : PyState E) (h : loopPy eng dom order draw n1 n2 fuel = .val (some (k, s))) :
    s.disks.length = n1 ∧ s.quads.length = n2 ∧ s.status.rejected + n1 + n2 = k ∧
    MutuallyCompatible eng 2.5 (5 * Real.pi / 36) 5 2.5 s.disks ∧
    MutuallyCompatible eng 5 (5 * Real.pi / 36) 5 2.5 s.quads ∧
    CrossCompatible eng 2.5 (2 * Real.pi / 9) 5 2.5 s.disks s.quads ∧
    (∀ x, x ∈ s.disks ∨ x ∈ s.quads → ∀ f ∈ dom.faces, Compatible eng 2.5 (Real.pi / 12) 5 2.5 f x) ∧
    (∀ x ∈ s.disks, (∃ i, draw .disk i = .val x) ∧ ∃ a, dom.containedArea (.disk, x) = .val a ∧ 350 ≤ a) ∧
    (∀ x ∈ s.quads, (∃ i, draw .quad i = .val x) ∧ ∃ a, dom.containedArea (.quad, x) = .val a ∧ 350 ≤ a) ∧
    s.area = (s.disks.map (fun e => number (dom.containedArea (.disk, e)))).sum +
      (s.quads.map (fun e => number (dom.containedArea (.quad, e)))).sum := by
  obtain ⟨H, hf⟩ := whileLoop_inv (PyInv eng dom draw n1 n2)
    (fun k s s' H _ hb => passPy_step H hb) fuel 0 _
    ⟨⟨0, rfl, rfl⟩, netInv_nil dom _ n1 n2⟩ k s h
  obtain ⟨⟨r, g2, g3⟩, g4⟩ := H
  have hf' : s.status.finishedOn (order s.status)
      = .val (decide (n1 ≤ s.disks.length ∧ n2 ≤ s.quads.length)) := by
    have h' := ho s.status
    rw [g2] at h' ⊢
    exact twoStatus_finished _ _ _ _ _ _ h'
  rw [hf'] at hf
  simp only [Outcome.val.injEq, decide_eq_true_eq] at hf
  have e1 : s.disks.length = n1 := le_antisymm g4.b1 hf.1
  have e2 : s.quads.length = n2 := le_antisymm g4.b2 hf.2
  refine ⟨e1, e2, ?_, pairwise_mutual g4.self1, pairwise_mutual g4.self2,
    g4.cross, ?_, fun x hx => ⟨(g4.good1 x hx).1, (g4.good1 x hx).2.2⟩,
    fun x hx => ⟨(g4.good2 x hx).1, (g4.good2 x hx).2.2⟩, g4.area⟩
  · rw [g2]; show r + n1 + n2 = k; omega
  · rintro x (hx | hx)
    exacts [(g4.good1 x hx).2.1, (g4.good2 x hx).2.1]

/-- Non-trivial instance: a disk far from the domain boundary is accepted in the first pass. -/
example : ∃ s, loopPy sampleEngine ⟨[100], fun _ => .val 400⟩ (fun s => s.count)
    (fun _ k => .val (10 * k)) 1 0 2 = .val (some (1, s)) ∧ s.area = 400 := by
  have e : evalPy sampleEngine (Constraints.run ops3Domain) [100] 0 = .val true := by
    refine (pyEval_true sampleEngine _ _ _).2 fun y hy => ?_
    rw [List.mem_singleton.1 hy]
    exact (evaluate_ops3Domain _ _).2 (sample_far (by norm_num) (by norm_num))
  have h3 : PyMatrix.evaluate (evalPy sampleEngine) (PyMatrix.run pyMatrixCalls)
      (PyState.dict ⟨[], [], twoStatus 0 0 0 1 0, true, 0⟩) 0 1 = .val true := by
    refine (C40_accepts_iff sampleEngine pyMatrixCalls _ 0 1).2 fun b c _ _ set hset y hy => ?_
    simp only [PyState.dict] at hset
    split_ifs at hset <;> cases hset <;> cases hy
  have hp : passPy sampleEngine ⟨[100], fun _ => .val 400⟩ (fun _ k => .val (10 * k)) 0
      ⟨[], [], twoStatus 0 0 0 1 0, true, 0⟩ = .val ⟨[0], [], twoStatus 0 1 0 1 0, false, 0 + 400⟩ := by
    unfold passPy
    have h1 : (twoStatus 0 0 0 1 0).finishedId 1 = .val false := rfl
    simp only [if_true, Outcome.val_bind, mul_zero, h1, Bool.false_eq_true, if_false]
    rw [if_neg (by norm_num), h3]
    simp only [Outcome.val_bind, Bool.not_true, Bool.false_eq_true, if_false, e]
    rfl
  refine ⟨⟨[0], [], twoStatus 0 1 0 1 0, false, 0 + 400⟩, ?_, by simp⟩
  · unfold loopPy
    rw [twoStatus_init]
    simp only [whileLoop]
    have f0 : (twoStatus 0 0 0 1 0).finishedOn (twoStatus 0 0 0 1 0).count = .val false := rfl
    rw [f0]
    simp only [hp]
    have f1 : (twoStatus 0 1 0 1 0).finishedOn (twoStatus 0 1 0 1 0).count = .val true := rfl
    rw [f1]

end Props
