import Verif.Model.Appl.Examples
import Verif.Spec.Network
import Verif.Props.Status
import Verif.Props.Constraints
import Verif.Props.Matrix
import Verif.Props.EntitySet

/-!
# Networks generated by the example applications (C61, C62, C63)
-/

namespace Props
open Verif Frackit Frackit.Appl
open Spec.Network

variable {E : Type}

/-! ## Loops -/

/-- Partial correctness of a loop from an invariant. -/
theorem whileLoop_inv {σ : Type} {finished : σ → Outcome Bool} {body : ℕ → σ → Outcome σ}
    (I : ℕ → σ → Prop)
    (step : ∀ k s s', I k s → finished s = .val false → body k s = .val s' → I (k + 1) s') :
    ∀ (fuel k : ℕ) (s : σ), I k s → ∀ k' s', whileLoop finished body fuel k s = .val (some (k', s')) →
      I k' s' ∧ finished s' = .val true := by
  intro fuel
  induction fuel with
  | zero => intro k s _ k' s' h; simp [whileLoop] at h
  | succ n ih =>
    intro k s hI k' s' h
    simp only [whileLoop] at h
    cases hf : finished s with
    | val b =>
      rw [hf] at h
      cases b with
      | true =>
        simp only [Outcome.val.injEq, Option.some.injEq, Prod.mk.injEq] at h
        obtain ⟨rfl, rfl⟩ := h
        exact ⟨hI, hf⟩
      | false =>
        cases hb : body k s with
        | val s1 =>
          rw [hb] at h
          exact ih (k + 1) s1 (step k s s1 hI hf hb) k' s' h
        | thrown e => rw [hb] at h; cases h
        | nan => rw [hb] at h; cases h
        | ub => rw [hb] at h; cases h
    | thrown e => rw [hf] at h; cases h
    | nan => rw [hf] at h; cases h
    | ub => rw [hf] at h; cases h

/-- A loop does not fail if neither the condition nor the body do. -/
theorem whileLoop_isVal {σ : Type} {finished : σ → Outcome Bool} {body : ℕ → σ → Outcome σ}
    (I : ℕ → σ → Prop) (hfin : ∀ k s, I k s → (finished s).isVal)
    (hbody : ∀ k s, I k s → finished s = .val false → (body k s).isVal)
    (step : ∀ k s s', I k s → finished s = .val false → body k s = .val s' → I (k + 1) s') :
    ∀ (fuel k : ℕ) (s : σ), I k s → (whileLoop finished body fuel k s).isVal := by
  intro fuel
  induction fuel with
  | zero => intro k s _; trivial
  | succ n ih =>
    intro k s hI
    simp only [whileLoop]
    have h1 := hfin k s hI
    cases hf : finished s with
    | val b =>
      cases b with
      | true => trivial
      | false =>
        have h2 := hbody k s hI hf
        cases hb : body k s with
        | val s1 => exact ih _ _ (step k s s1 hI hf hb)
        | thrown e => rw [hb] at h2; exact h2.elim
        | nan => rw [hb] at h2; exact h2.elim
        | ub => rw [hb] at h2; exact h2.elim
    | thrown e => rw [hf] at h1; exact h1.elim
    | nan => rw [hf] at h1; exact h1.elim
    | ub => rw [hf] at h1; exact h1.elim

/-- A loop that has not been left after `fuel` passes has made `fuel` passes. -/
theorem whileLoop_none {σ : Type} {finished : σ → Outcome Bool} {body : ℕ → σ → Outcome σ}
    (I : ℕ → σ → Prop)
    (step : ∀ k s s', I k s → finished s = .val false → body k s = .val s' → I (k + 1) s') :
    ∀ (fuel k : ℕ) (s : σ), I k s → whileLoop finished body fuel k s = .val none →
      ∃ s', I (k + fuel) s' := by
  intro fuel
  induction fuel with
  | zero => intro k s hI _; exact ⟨s, hI⟩
  | succ n ih =>
    intro k s hI h
    simp only [whileLoop] at h
    cases hf : finished s with
    | val b =>
      rw [hf] at h
      cases b with
      | true => cases h
      | false =>
        cases hb : body k s with
        | val s1 =>
          rw [hb] at h
          have := ih (k + 1) s1 (step k s s1 hI hf hb) h
          rwa [show k + (n + 1) = k + 1 + n by omega]
        | thrown e => rw [hb] at h; cases h
        | nan => rw [hb] at h; cases h
        | ub => rw [hb] at h; cases h
    | thrown e => rw [hf] at h; cases h
    | nan => rw [hf] at h; cases h
    | ub => rw [hf] at h; cases h

/-! ## The status with two ids -/

/-- The status with ids 1 and 2. -/
def twoStatus (r a b n1 n2 : ℕ) : SamplingStatus := ⟨r, [(1, a), (2, b)], [(1, n1), (2, n2)]⟩

theorem twoStatus_init (n1 n2 : ℕ) :
    (SamplingStatus.init.setTargetCount 1 n1).setTargetCount 2 n2 = twoStatus 0 0 0 n1 n2 := rfl

theorem twoStatus_inc1 (r a b n1 n2 : ℕ) :
    (twoStatus r a b n1 n2).increaseCounter 1 = twoStatus r (a + 1) b n1 n2 := rfl

theorem twoStatus_inc2 (r a b n1 n2 : ℕ) :
    (twoStatus r a b n1 n2).increaseCounter 2 = twoStatus r a (b + 1) n1 n2 := rfl

theorem twoStatus_rej (r a b n1 n2 : ℕ) :
    (twoStatus r a b n1 n2).increaseRejectedCounter = twoStatus (r + 1) a b n1 n2 := rfl

theorem twoStatus_id1 (r a b n1 n2 : ℕ) :
    (twoStatus r a b n1 n2).finishedId 1 = .val (decide (n1 ≤ a)) := rfl

theorem twoStatus_id2 (r a b n1 n2 : ℕ) :
    (twoStatus r a b n1 n2).finishedId 2 = .val (decide (n2 ≤ b)) := rfl

theorem twoStatus_finished (r a b n1 n2 : ℕ) (order : List (ℕ × ℕ))
    (ho : order.Perm (twoStatus r a b n1 n2).count) :
    (twoStatus r a b n1 n2).finishedOn order = .val (decide (n1 ≤ a ∧ n2 ≤ b)) := by
  have t1 : assocFind (twoStatus r a b n1 n2).target 1 = some n1 := rfl
  have t2 : assocFind (twoStatus r a b n1 n2).target 2 = some n2 := rfl
  obtain ⟨c, hc⟩ := finishedOn_isVal (twoStatus r a b n1 n2) order (by
    intro p hp
    have := ho.mem_iff.1 hp
    simp only [twoStatus, List.mem_cons, List.not_mem_nil, or_false] at this
    rcases this with rfl | rfl <;> rfl)
  obtain ⟨h1, h2⟩ := finishedOn_val _ _ _ hc
  rw [hc]
  congr 1
  cases c with
  | true =>
    obtain ⟨m1, e1, l1⟩ := h1 rfl (1, a) (ho.mem_iff.2 (by simp [twoStatus]))
    obtain ⟨m2, e2, l2⟩ := h1 rfl (2, b) (ho.mem_iff.2 (by simp [twoStatus]))
    rw [t1] at e1
    rw [t2] at e2
    cases e1; cases e2
    exact (decide_eq_true ⟨l1, l2⟩).symm
  | false =>
    obtain ⟨p, hp, n, hn, hlt⟩ := h2 rfl
    have := ho.mem_iff.1 hp
    simp only [twoStatus, List.mem_cons, List.not_mem_nil, or_false] at this
    symm
    apply decide_eq_false
    rintro ⟨g1, g2⟩
    rcases this with rfl | rfl
    · rw [t1] at hn; cases hn; simp only at hlt; omega
    · rw [t2] at hn; cases hn; simp only at hlt; omega

/-! ## Constraints of the examples -/

variable (eng : Engine E)

theorem evaluate_selfOps (a b : E) :
    Constraints.evaluate eng (Constraints.run selfOps) a b = .val true ↔
      Compatible eng 0.05 (Real.pi / 6) 0.05 0.05 a b := by
  have e : Spec.Constraints.config selfOps.reverse
      = ⟨some 0.05, some (Real.pi / 6), some 0.05, some 0.05, none, false⟩ := by
    have : toRadians 30 = Real.pi / 6 := by unfold toRadians; ring
    simp [selfOps, Spec.Constraints.config, Spec.Constraints.minDistance, Spec.Constraints.minAngle,
      Spec.Constraints.minMagnitude, Spec.Constraints.minBoundaryDistance, Spec.Constraints.eps,
      Spec.Constraints.allowEquiDim, this]
  rw [C35_accepts_exact eng selfOps a b (by rw [e]; simp [Spec.Constraints.Config.Inactive]), e]
  rfl

theorem evaluate_otherOps (a b : E) :
    Constraints.evaluate eng (Constraints.run otherOps) a b = .val true ↔
      Compatible eng 0.05 (2 * Real.pi / 9) 0.05 0.05 a b := by
  have e : Spec.Constraints.config otherOps.reverse
      = ⟨some 0.05, some (2 * Real.pi / 9), some 0.05, some 0.05, none, false⟩ := by
    have : toRadians 40 = 2 * Real.pi / 9 := by unfold toRadians; ring
    simp [otherOps, selfOps, Spec.Constraints.config, Spec.Constraints.minDistance,
      Spec.Constraints.minAngle, Spec.Constraints.minMagnitude, Spec.Constraints.minBoundaryDistance,
      Spec.Constraints.eps, Spec.Constraints.allowEquiDim, this]
  rw [C35_accepts_exact eng otherOps a b (by rw [e]; simp [Spec.Constraints.Config.Inactive]), e]
  rfl

/-! ## C61 Two sets -/

/-- The state of the loop after `k` passes, where accepted candidates satisfy `G`. -/
structure TwoInv (draw1 draw2 : ℕ → Outcome E) (G : E → Prop) (n1 n2 k : ℕ) (s : TwoSets E) : Prop where
  status : ∃ r, s.status = twoStatus r s.set1.length s.set2.length n1 n2 ∧
    r + s.set1.length + s.set2.length = k
  turn1 : s.into1 = true → s.set1.length = s.set2.length
  turn2 : s.into1 = false → s.set1.length = s.set2.length + 1
  bound1 : s.set1.length ≤ max n1 n2
  bound2 : s.set2.length ≤ max (n1 - 1) n2
  self1 : s.set1.Pairwise (Compatible eng 0.05 (Real.pi / 6) 0.05 0.05)
  self2 : s.set2.Pairwise (Compatible eng 0.05 (Real.pi / 6) 0.05 0.05)
  other : CrossCompatible eng 0.05 (2 * Real.pi / 9) 0.05 0.05 s.set1 s.set2
  good : (∀ x ∈ s.set1, G x ∧ ∃ i < k, draw1 i = .val x) ∧ ∀ x ∈ s.set2, G x ∧ ∃ i < k, draw2 i = .val x

variable {eng}

theorem twoInv_init (draw1 draw2 : ℕ → Outcome E) (G : E → Prop) (n1 n2 : ℕ) :
    TwoInv eng draw1 draw2 G n1 n2 0 (TwoSets.init n1 n2) :=
  ⟨⟨0, rfl, rfl⟩, fun _ => rfl, (fun h => by cases h), Nat.zero_le _, Nat.zero_le _,
    List.Pairwise.nil, List.Pairwise.nil, (fun a ha => by cases ha), (fun x hx => by cases hx),
    fun x hx => by cases hx⟩

theorem twoInv_reject {draw1 draw2 : ℕ → Outcome E} {G : E → Prop} {n1 n2 k : ℕ} {s : TwoSets E}
    (H : TwoInv eng draw1 draw2 G n1 n2 k s) : TwoInv eng draw1 draw2 G n1 n2 (k + 1) s.reject := by
  obtain ⟨⟨r, hr, hk⟩, t1, t2, b1, b2, s1, s2, o, g1, g2⟩ := H
  refine ⟨⟨r + 1, ?_, ?_⟩, t1, t2, b1, b2, s1, s2, o, ?_, ?_⟩
  · show s.status.increaseRejectedCounter = _
    rw [hr, twoStatus_rej]; rfl
  · show r + 1 + s.set1.length + s.set2.length = k + 1
    omega
  · intro x hx
    obtain ⟨h, i, hi, e⟩ := g1 x hx
    exact ⟨h, i, by omega, e⟩
  · intro x hx
    obtain ⟨h, i, hi, e⟩ := g2 x hx
    exact ⟨h, i, by omega, e⟩

theorem twoInv_accept {draw1 draw2 : ℕ → Outcome E} {G : E → Prop} {n1 n2 k : ℕ} {s : TwoSets E}
    (H : TwoInv eng draw1 draw2 G n1 n2 k s) (hnf : s.set1.length < n1 ∨ s.set2.length < n2)
    {x : E} (hx : (if s.into1 then draw1 k else draw2 k) = .val x)
    (hself : ∀ e ∈ (if s.into1 then s.set1 else s.set2), Compatible eng 0.05 (Real.pi / 6) 0.05 0.05 e x)
    (hother : ∀ e ∈ (if s.into1 then s.set2 else s.set1),
      Compatible eng 0.05 (2 * Real.pi / 9) 0.05 0.05 e x) (hG : G x) :
    TwoInv eng draw1 draw2 G n1 n2 (k + 1) (s.accept x) := by
  obtain ⟨⟨r, hr, hk⟩, t1, t2, b1, b2, s1, s2, o, g1, g2⟩ := H
  obtain ⟨l1, l2, st, into⟩ := s
  have mono1 : ∀ y ∈ l1, G y ∧ ∃ i < k + 1, draw1 i = .val y := by
    intro y hy
    obtain ⟨h, i, hi, e⟩ := g1 y hy
    exact ⟨h, i, by omega, e⟩
  have mono2 : ∀ y ∈ l2, G y ∧ ∃ i < k + 1, draw2 i = .val y := by
    intro y hy
    obtain ⟨h, i, hi, e⟩ := g2 y hy
    exact ⟨h, i, by omega, e⟩
  simp only at hr hk t1 t2 b1 b2 s1 s2 o hnf hx hself hother
  cases into with
  | true =>
    have t := t1 rfl
    simp only [if_true] at hx hself hother
    refine ⟨⟨r, ?_, ?_⟩, (fun h => by cases h), fun _ => ?_, ?_, ?_, ?_, s2, ?_, ?_, mono2⟩
    · simp only [TwoSets.accept, if_true, hr, twoStatus_inc1, List.length_append, List.length_singleton]
    · simp only [TwoSets.accept, if_true, List.length_append, List.length_singleton]; omega
    · simp only [TwoSets.accept, if_true, List.length_append, List.length_singleton]; omega
    · simp only [TwoSets.accept, if_true, List.length_append, List.length_singleton]; omega
    · simp only [TwoSets.accept, if_true]; omega
    · simp only [TwoSets.accept, if_true]
      rw [List.pairwise_append]
      exact ⟨s1, List.pairwise_singleton _ _, fun a ha b hb => by
        rw [List.mem_singleton.1 hb]; exact hself a ha⟩
    · simp only [TwoSets.accept, if_true]
      intro a ha b hb
      rcases List.mem_append.1 ha with ha | ha
      · exact o a ha b hb
      · rw [List.mem_singleton.1 ha]; exact Or.inr (hother b hb)
    · simp only [TwoSets.accept, if_true]
      intro y hy
      rcases List.mem_append.1 hy with hy | hy
      · exact mono1 y hy
      · rw [List.mem_singleton.1 hy]; exact ⟨hG, k, by omega, hx⟩
  | false =>
    have t := t2 rfl
    simp only [Bool.false_eq_true, if_false] at hx hself hother
    refine ⟨⟨r, ?_, ?_⟩, fun _ => ?_, (fun h => by cases h), ?_, ?_, s1, ?_, ?_, mono1, ?_⟩
    · simp only [TwoSets.accept, Bool.false_eq_true, if_false, hr, twoStatus_inc2, List.length_append,
        List.length_singleton]
    · simp only [TwoSets.accept, Bool.false_eq_true, if_false, List.length_append,
        List.length_singleton]; omega
    · simp only [TwoSets.accept, Bool.false_eq_true, if_false, List.length_append,
        List.length_singleton]; omega
    · simp only [TwoSets.accept, Bool.false_eq_true, if_false]; omega
    · simp only [TwoSets.accept, Bool.false_eq_true, if_false, List.length_append,
        List.length_singleton]; omega
    · simp only [TwoSets.accept, Bool.false_eq_true, if_false]
      rw [List.pairwise_append]
      exact ⟨s2, List.pairwise_singleton _ _, fun a ha b hb => by
        rw [List.mem_singleton.1 hb]; exact hself a ha⟩
    · simp only [TwoSets.accept, Bool.false_eq_true, if_false]
      intro a ha b hb
      rcases List.mem_append.1 hb with hb | hb
      · exact o a ha b hb
      · rw [List.mem_singleton.1 hb]; exact Or.inl (hother a ha)
    · simp only [TwoSets.accept, Bool.false_eq_true, if_false]
      intro y hy
      rcases List.mem_append.1 hy with hy | hy
      · exact mono2 y hy
      · rw [List.mem_singleton.1 hy]; exact ⟨hG, k, by omega, hx⟩

theorem twoInv_not_finished {order : SamplingStatus → List (ℕ × ℕ)} (ho : ∀ s, (order s).Perm s.count)
    {draw1 draw2 : ℕ → Outcome E} {G : E → Prop} {n1 n2 k : ℕ} {s : TwoSets E}
    (H : TwoInv eng draw1 draw2 G n1 n2 k s) :
    s.status.finishedOn (order s.status)
      = .val (decide (n1 ≤ s.set1.length ∧ n2 ≤ s.set2.length)) := by
  obtain ⟨r, hr, _⟩ := H.status
  have h := ho s.status
  rw [hr] at h ⊢
  exact twoStatus_finished _ _ _ _ _ _ h

theorem pass1_step {order : SamplingStatus → List (ℕ × ℕ)} (ho : ∀ s, (order s).Perm s.count)
    {draw1 draw2 : ℕ → Outcome E} {n1 n2 k : ℕ} {s s' : TwoSets E}
    (H : TwoInv eng draw1 draw2 (fun _ => True) n1 n2 k s)
    (hf : s.status.finishedOn (order s.status) = .val false)
    (hb : pass1 eng draw1 draw2 k s = .val s') :
    TwoInv eng draw1 draw2 (fun _ => True) n1 n2 (k + 1) s' := by
  have hnf : s.set1.length < n1 ∨ s.set2.length < n2 := by
    rw [twoInv_not_finished ho H] at hf
    simp only [Outcome.val.injEq, decide_eq_false_iff_not] at hf
    omega
  unfold pass1 at hb
  obtain ⟨x, hx, hb⟩ := Outcome.bind_eq_val.1 hb
  obtain ⟨b1, h1, hb⟩ := Outcome.bind_eq_val.1 hb
  cases b1 with
  | false =>
    simp only [Bool.not_false, if_true, Outcome.pure_eq, Outcome.val.injEq] at hb
    rw [← hb]; exact twoInv_reject H
  | true =>
    simp only [Bool.not_true, Bool.false_eq_true, if_false] at hb
    obtain ⟨b2, h2, hb⟩ := Outcome.bind_eq_val.1 hb
    cases b2 with
    | false =>
      simp only [Bool.not_false, if_true, Outcome.pure_eq, Outcome.val.injEq] at hb
      rw [← hb]; exact twoInv_reject H
    | true =>
      simp only [Bool.not_true, Bool.false_eq_true, if_false, Outcome.pure_eq, Outcome.val.injEq] at hb
      rw [← hb]
      refine twoInv_accept H hnf hx ?_ ?_ trivial
      · intro e he
        exact (evaluate_selfOps eng e x).1 (((C37_set eng _ _ _).1.1 h1) e he)
      · intro e he
        exact (evaluate_otherOps eng e x).1 (((C37_set eng _ _ _).1.1 h2) e he)

theorem pairwise_mutual {d a m b : ℝ} {l : List E} (h : l.Pairwise (Compatible eng d a m b)) :
    MutuallyCompatible eng d a m b l := by
  intro i j hi hj hij
  exact List.pairwise_iff_getElem.1 h i j hi hj hij

/-- The loop of example 1 with any target counts: when it is left, the first set has as many entities as
the larger of the two targets, the second one as many as its target or one less than the target of the
first set; each candidate has been accepted or counted as rejected; and all entities are compatible. -/
theorem C61_two_sets (order : SamplingStatus → List (ℕ × ℕ)) (ho : ∀ s, (order s).Perm s.count)
    (draw1 draw2 : ℕ → Outcome E) (n1 n2 fuel k : ℕ) (s : TwoSets E)
    (h : loop1 eng order draw1 draw2 n1 n2 fuel = .val (some (k, s))) :
    (s.set1.length = max n1 n2 ∧ s.set2.length = max (n1 - 1) n2) ∧
    s.status.rejected + s.set1.length + s.set2.length = k ∧
    MutuallyCompatible eng 0.05 (Real.pi / 6) 0.05 0.05 s.set1 ∧
    MutuallyCompatible eng 0.05 (Real.pi / 6) 0.05 0.05 s.set2 ∧
    CrossCompatible eng 0.05 (2 * Real.pi / 9) 0.05 0.05 s.set1 s.set2 ∧
    (∀ x ∈ s.set1, ∃ i < k, draw1 i = .val x) ∧ (∀ x ∈ s.set2, ∃ i < k, draw2 i = .val x) := by
  obtain ⟨H, hf⟩ := whileLoop_inv (TwoInv eng draw1 draw2 (fun _ => True) n1 n2)
    (fun k s s' H hf hb => pass1_step ho H hf hb) fuel 0 _ (twoInv_init _ _ _ _ _) k s h
  rw [twoInv_not_finished ho H] at hf
  simp only [Outcome.val.injEq, decide_eq_true_eq] at hf
  obtain ⟨⟨r, hr, hk⟩, t1, t2, b1, b2, s1, s2, o, g1, g2⟩ := H
  refine ⟨?_, by rw [hr]; exact hk, pairwise_mutual s1, pairwise_mutual s2, o,
    fun x hx => (g1 x hx).2, fun x hx => (g2 x hx).2⟩
  cases hi : s.into1 with
  | true => have := t1 hi; omega
  | false => have := t2 hi; omega

/-- Example 1: the network has 15 entities per set, all of them compatible. -/
theorem C61_example1 (order : SamplingStatus → List (ℕ × ℕ)) (ho : ∀ s, (order s).Perm s.count)
    (draw1 draw2 : ℕ → Outcome E) (fuel k : ℕ) (s : TwoSets E)
    (h : example1 eng order draw1 draw2 fuel = .val (some (k, s))) :
    s.set1.length = 15 ∧ s.set2.length = 15 ∧ s.status.rejected + 30 = k ∧
    MutuallyCompatible eng 0.05 (Real.pi / 6) 0.05 0.05 s.set1 ∧
    MutuallyCompatible eng 0.05 (Real.pi / 6) 0.05 0.05 s.set2 ∧
    CrossCompatible eng 0.05 (2 * Real.pi / 9) 0.05 0.05 s.set1 s.set2 := by
  obtain ⟨⟨h1, h2⟩, h3, h4, h5, h6, -⟩ := C61_two_sets order ho draw1 draw2 15 15 fuel k s h
  refine ⟨by simpa using h1, by simpa using h2, ?_, h4, h5, h6⟩
  simp at h1 h2
  omega

/-- If no angle or distance is NaN, compatible entities are those whose angles and distances are at least the
thresholds. -/
theorem C61_compatible_iff (N : Spec.Constraints.NoNaN eng) (d an m bd : ℝ) (a b : E) :
    Compatible eng d an m bd a b ↔
      Spec.Constraints.Accept eng ⟨some d, some an, some m, some bd, none, false⟩ a b :=
  acceptBy_iff eng N _ a b

/-- Non-trivial instance. -/
example : Spec.Constraints.NoNaN sampleEngine := noNaN_of_total _ sampleEngine_total

/-! ### Failures and progress -/

theorem evaluate_val_of_iff {ops : List Constraints.Op} {d an m bd : ℝ} {a b : E}
    (h : Constraints.evaluate eng (Constraints.run ops) a b = .val true ↔ Compatible eng d an m bd a b)
    (e : Spec.Constraints.config ops.reverse = ⟨some d, some an, some m, some bd, none, false⟩)
    (T : Spec.Constraints.Total eng) (hdim : eng.dim ≤ 2) :
    (Constraints.evaluate eng (Constraints.run ops) a b).isVal := by
  by_cases hc : Compatible eng d an m bd a b
  · rw [h.2 hc]; trivial
  · have := (C35_rejects eng ops a b (by rw [e]; simp [Spec.Constraints.Config.Inactive]) T hdim
      (Or.inl (by rw [e]))).2 (by rw [e, ← acceptBy_iff eng (noNaN_of_total eng T)]; exact hc)
    rw [this]; trivial

theorem config_selfOps : Spec.Constraints.config selfOps.reverse
    = ⟨some 0.05, some (Real.pi / 6), some 0.05, some 0.05, none, false⟩ := by
  have : toRadians 30 = Real.pi / 6 := by unfold toRadians; ring
  simp [selfOps, Spec.Constraints.config, Spec.Constraints.minDistance, Spec.Constraints.minAngle,
    Spec.Constraints.minMagnitude, Spec.Constraints.minBoundaryDistance, Spec.Constraints.eps,
    Spec.Constraints.allowEquiDim, this]

theorem config_otherOps : Spec.Constraints.config otherOps.reverse
    = ⟨some 0.05, some (2 * Real.pi / 9), some 0.05, some 0.05, none, false⟩ := by
  have : toRadians 40 = 2 * Real.pi / 9 := by unfold toRadians; ring
  simp [otherOps, selfOps, Spec.Constraints.config, Spec.Constraints.minDistance,
    Spec.Constraints.minAngle, Spec.Constraints.minMagnitude, Spec.Constraints.minBoundaryDistance,
    Spec.Constraints.eps, Spec.Constraints.allowEquiDim, this]

theorem evaluateSet_isVal {c : Constraints} {set : List E} {x : E}
    (h : ∀ e ∈ set, (Constraints.evaluate eng c e x).isVal) :
    (Constraints.evaluateSet eng c set x).isVal := by
  unfold Constraints.evaluateSet
  induction set with
  | nil => trivial
  | cons a t ih =>
    have h1 := h a (by simp)
    have h2 := ih fun e he => h e (by simp [he])
    simp only [allOf]
    cases he : Constraints.evaluate eng c a x with
    | val b => cases b <;> simp_all
    | thrown e => rw [he] at h1; exact h1.elim
    | nan => rw [he] at h1; exact h1.elim
    | ub => rw [he] at h1; exact h1.elim

/-- If all candidates can be sampled and all geometric computations return values, the loop never
fails. -/
theorem C61_no_failure (order : SamplingStatus → List (ℕ × ℕ)) (ho : ∀ s, (order s).Perm s.count)
    (draw1 draw2 : ℕ → Outcome E) (n1 n2 fuel : ℕ) (T : Spec.Constraints.Total eng) (hdim : eng.dim ≤ 2)
    (h1 : ∀ k, (draw1 k).isVal) (h2 : ∀ k, (draw2 k).isVal) :
    (loop1 eng order draw1 draw2 n1 n2 fuel).isVal := by
  refine whileLoop_isVal (TwoInv eng draw1 draw2 (fun _ => True) n1 n2) ?_ ?_
    (fun k s s' H hf hb => pass1_step ho H hf hb) fuel 0 _ (twoInv_init _ _ _ _ _)
  · intro k s H; rw [twoInv_not_finished ho H]; trivial
  · intro k s H _
    unfold pass1
    refine isVal_bind (by split_ifs; exacts [h1 k, h2 k]) fun x _ => ?_
    refine isVal_bind (evaluateSet_isVal fun e _ =>
      evaluate_val_of_iff (evaluate_selfOps eng e x) config_selfOps T hdim) fun b _ => ?_
    refine isVal_ite (fun _ => trivial) fun _ => ?_
    refine isVal_bind (evaluateSet_isVal fun e _ =>
      evaluate_val_of_iff (evaluate_otherOps eng e x) config_otherOps T hdim) fun b _ => ?_
    exact isVal_ite (fun _ => trivial) fun _ => trivial

/-- If the loop has not been left after some number of passes, all of them but at most
`max n1 n2 + max (n1 - 1) n2` have been rejections: it can only run forever if from some pass on all
candidates are rejected. -/
theorem C61_rejections (order : SamplingStatus → List (ℕ × ℕ)) (ho : ∀ s, (order s).Perm s.count)
    (draw1 draw2 : ℕ → Outcome E) (n1 n2 fuel : ℕ)
    (h : loop1 eng order draw1 draw2 n1 n2 fuel = .val none) :
    ∃ s : TwoSets E, passes (pass1 eng draw1 draw2) (TwoSets.init n1 n2) fuel = .val s ∧
      fuel ≤ s.status.rejected + max n1 n2 + max (n1 - 1) n2 ∧
      s.set1.length ≤ max n1 n2 ∧ s.set2.length ≤ max (n1 - 1) n2 := by
  obtain ⟨s, H, hp⟩ := whileLoop_none
    (fun k s => TwoInv eng draw1 draw2 (fun _ => True) n1 n2 k s ∧
      passes (pass1 eng draw1 draw2) (TwoSets.init n1 n2) k = .val s)
    (fun k s s' H hf hb => ⟨pass1_step ho H.1 hf hb, by rw [passes, H.2]; exact hb⟩) fuel 0 _
    ⟨twoInv_init _ _ _ _ _, rfl⟩ h
  obtain ⟨⟨r, hr, hk⟩, t1, t2, b1, b2, -⟩ := H
  rw [Nat.zero_add] at hp
  refine ⟨s, hp, ?_, b1, b2⟩
  rw [hr]
  show fuel ≤ r + _ + _
  omega

/-- Candidates that are compatible with all other ones, in whatever order they are considered, are all
accepted: the loop is left after as many passes as there are entities. -/
theorem C61_terminates (order : SamplingStatus → List (ℕ × ℕ)) (ho : ∀ s, (order s).Perm s.count)
    (x : ℕ → E) (n1 n2 fuel : ℕ)
    (hself : ∀ i j, i ≠ j → Compatible eng 0.05 (Real.pi / 6) 0.05 0.05 (x i) (x j))
    (hother : ∀ i j, i ≠ j → Compatible eng 0.05 (2 * Real.pi / 9) 0.05 0.05 (x i) (x j))
    (hfuel : max n1 n2 + max (n1 - 1) n2 < fuel) :
    ∃ s, loop1 eng order (fun k => .val (x k)) (fun k => .val (x k)) n1 n2 fuel
      = .val (some (max n1 n2 + max (n1 - 1) n2, s)) ∧ s.status.rejected = 0 := by
  have pass : ∀ k s, TwoInv eng (fun k => .val (x k)) (fun k => .val (x k)) (fun _ => True) n1 n2 k s →
      pass1 eng (fun k => .val (x k)) (fun k => .val (x k)) k s = .val (s.accept (x k)) := by
    intro k s H
    have mem : ∀ e, e ∈ s.set1 ∨ e ∈ s.set2 → ∃ i < k, e = x i := by
      rintro e (he | he)
      · obtain ⟨-, i, hi, e⟩ := H.good.1 e he
        simp only [Outcome.val.injEq] at e
        exact ⟨i, hi, e.symm⟩
      · obtain ⟨-, i, hi, e⟩ := H.good.2 e he
        simp only [Outcome.val.injEq] at e
        exact ⟨i, hi, e.symm⟩
    unfold pass1
    have e1 : Constraints.evaluateSet eng (Constraints.run selfOps)
        (if s.into1 then s.set1 else s.set2) (x k) = .val true := by
      rw [(C37_set eng _ _ _).1]
      intro e he
      obtain ⟨i, hi, rfl⟩ := mem e (by split_ifs at he; exacts [Or.inl he, Or.inr he])
      exact (evaluate_selfOps eng _ _).2 (hself _ _ (by omega))
    have e2 : Constraints.evaluateSet eng (Constraints.run otherOps)
        (if s.into1 then s.set2 else s.set1) (x k) = .val true := by
      rw [(C37_set eng _ _ _).1]
      intro e he
      obtain ⟨i, hi, rfl⟩ := mem e (by split_ifs at he; exacts [Or.inr he, Or.inl he])
      exact (evaluate_otherOps eng _ _).2 (hother _ _ (by omega))
    simp only [ite_self, Outcome.val_bind, e1, e2, Bool.not_true, Bool.false_eq_true, if_false,
      Outcome.pure_eq]
  have H := whileLoop_inv (finished := fun s : TwoSets E => s.status.finishedOn (order s.status))
    (body := pass1 eng (fun k => .val (x k)) (fun k => .val (x k)))
    (fun k s => TwoInv eng (fun k => .val (x k)) (fun k => .val (x k)) (fun _ => True) n1 n2 k s ∧
      s.status.rejected = 0) (fun k s s' H hf hb => ⟨pass1_step ho H.1 hf hb, by
        rw [pass k s H.1] at hb
        simp only [Outcome.val.injEq] at hb
        rw [← hb]
        exact H.2⟩) fuel 0 (TwoSets.init n1 n2) ⟨twoInv_init _ _ _ _ _, rfl⟩
  have N := whileLoop_none (finished := fun s : TwoSets E => s.status.finishedOn (order s.status))
    (body := pass1 eng (fun k => .val (x k)) (fun k => .val (x k)))
    (fun k s => TwoInv eng (fun k => .val (x k)) (fun k => .val (x k)) (fun _ => True) n1 n2 k s ∧
      s.status.rejected = 0) (fun k s s' H hf hb => ⟨pass1_step ho H.1 hf hb, by
        rw [pass k s H.1] at hb
        simp only [Outcome.val.injEq] at hb
        rw [← hb]
        exact H.2⟩) fuel 0 (TwoSets.init n1 n2) ⟨twoInv_init _ _ _ _ _, rfl⟩
  have V := whileLoop_isVal (finished := fun s : TwoSets E => s.status.finishedOn (order s.status))
    (body := pass1 eng (fun k => .val (x k)) (fun k => .val (x k)))
    (TwoInv eng (fun k => .val (x k)) (fun k => .val (x k)) (fun _ => True) n1 n2)
    (fun k s H => by rw [twoInv_not_finished ho H]; trivial)
    (fun k s H _ => by rw [pass k s H]; trivial)
    (fun k s s' H hf hb => pass1_step ho H hf hb) fuel 0 (TwoSets.init n1 n2) (twoInv_init _ _ _ _ _)
  unfold loop1
  cases hl : whileLoop (fun s : TwoSets E => s.status.finishedOn (order s.status))
    (pass1 eng (fun k => .val (x k)) (fun k => .val (x k))) fuel 0 (TwoSets.init n1 n2) with
  | val o =>
    cases o with
    | some r =>
      obtain ⟨k, s⟩ := r
      obtain ⟨⟨-, h0⟩, -⟩ := H k s hl
      obtain ⟨⟨h1, h2⟩, h3, -⟩ := C61_two_sets order ho _ _ n1 n2 fuel k s hl
      refine ⟨s, ?_, h0⟩
      rw [← h3, h0, h1, h2, Nat.zero_add]
    | none =>
      obtain ⟨s, ⟨⟨r, hr, hk⟩, -, -, b1, b2, -⟩, h0⟩ := N hl
      rw [hr] at h0
      change r = 0 at h0
      omega
  | thrown e => rw [hl] at V; exact V.elim
  | nan => rw [hl] at V; exact V.elim
  | ub => rw [hl] at V; exact V.elim

/-- Entities of `sampleEngine` that are far apart are compatible. -/
theorem sample_compatible {d a m b : ℝ} (hd : d ≤ 1) {i j : ℕ} (h : i ≠ j) :
    Compatible sampleEngine d a m b (2 * i) (2 * j) := by
  refine ⟨.list [.empty], ?_, Or.inl ⟨?_, ?_⟩⟩
  · have h1 : 2 * i ≠ 2 * j := by omega
    have h2 : 2 * i + 1 ≠ 2 * j := by omega
    have h3 : 2 * j + 1 ≠ 2 * i := by omega
    simp only [sampleEngine, if_neg h1, h2, h3, or_self, if_false]
  · intro g hg
    simpa [Spec.Constraints.parts] using hg
  · rintro t ht
    cases ht
    refine ⟨_, rfl, ?_⟩
    have : (1 : ℝ) ≤ |(i : ℝ) - j| := by
      have : (1 : ℤ) ≤ |(i : ℤ) - j| := Int.one_le_abs (by omega)
      exact_mod_cast this
    have e : ((2 * i : ℕ) : ℝ) - ((2 * j : ℕ) : ℝ) = 2 * ((i : ℝ) - j) := by push_cast; ring
    rw [e, abs_mul]
    norm_num
    linarith

/-- Non-trivial instance: with these entities, example 1 ends after 30 passes. -/
example : ∃ s, example1 sampleEngine (fun s => s.count) (fun k => .val (2 * k)) (fun k => .val (2 * k)) 100
    = .val (some (30, s)) ∧ s.status.rejected = 0 :=
  C61_terminates (fun s => s.count) (fun _ => List.Perm.refl _) (fun k => 2 * k) 15 15 100
    (fun _ _ h => sample_compatible (by norm_num) h) (fun _ _ h => sample_compatible (by norm_num) h)
    (by norm_num)

/-! ### Example 2: with a domain -/

/-- Requirements on an entity with respect to the domain. -/
def InCylinder (eng : Engine E) (dom : CylinderDomain E) (x : E) : Prop :=
  Compatible eng 0.05 (Real.pi / 6) 0.05 0.05 dom.top x ∧
  Compatible eng 0.05 (Real.pi / 6) 0.05 0.05 dom.bottom x ∧
  Compatible eng 0.05 (Real.pi / 6) 0.05 0.05 dom.lateral x ∧
  Spec.Constraints.AtLeast (dom.containedArea x) 0.01

theorem pass2_step {dom : CylinderDomain E} {order : SamplingStatus → List (ℕ × ℕ)}
    (ho : ∀ s, (order s).Perm s.count)
    {draw1 draw2 : ℕ → Outcome E} {n1 n2 k : ℕ} {s s' : TwoSets E}
    (H : TwoInv eng draw1 draw2 (InCylinder eng dom) n1 n2 k s)
    (hf : s.status.finishedOn (order s.status) = .val false)
    (hb : pass2 eng dom draw1 draw2 k s = .val s') :
    TwoInv eng draw1 draw2 (InCylinder eng dom) n1 n2 (k + 1) s' := by
  have hnf : s.set1.length < n1 ∨ s.set2.length < n2 := by
    rw [twoInv_not_finished ho H] at hf
    simp only [Outcome.val.injEq, decide_eq_false_iff_not] at hf
    omega
  unfold pass2 at hb
  obtain ⟨x, hx, hb⟩ := Outcome.bind_eq_val.1 hb
  obtain ⟨b1, h1, hb⟩ := Outcome.bind_eq_val.1 hb
  cases b1 with
  | false =>
    simp only [Bool.not_false, if_true, Outcome.pure_eq, Outcome.val.injEq] at hb
    rw [← hb]; exact twoInv_reject H
  | true =>
  simp only [Bool.not_true, Bool.false_eq_true, if_false] at hb
  obtain ⟨b2, h2, hb⟩ := Outcome.bind_eq_val.1 hb
  cases b2 with
  | false =>
    simp only [Bool.not_false, if_true, Outcome.pure_eq, Outcome.val.injEq] at hb
    rw [← hb]; exact twoInv_reject H
  | true =>
  simp only [Bool.not_true, Bool.false_eq_true, if_false] at hb
  obtain ⟨b3, h3, hb⟩ := Outcome.bind_eq_val.1 hb
  cases b3 with
  | false =>
    simp only [Bool.not_false, if_true, Outcome.pure_eq, Outcome.val.injEq] at hb
    rw [← hb]; exact twoInv_reject H
  | true =>
  simp only [Bool.not_true, Bool.false_eq_true, if_false] at hb
  obtain ⟨b4, h4, hb⟩ := Outcome.bind_eq_val.1 hb
  cases b4 with
  | false =>
    simp only [Bool.not_false, if_true, Outcome.pure_eq, Outcome.val.injEq] at hb
    rw [← hb]; exact twoInv_reject H
  | true =>
  simp only [Bool.not_true, Bool.false_eq_true, if_false] at hb
  obtain ⟨b5, h5, hb⟩ := Outcome.bind_eq_val.1 hb
  cases b5 with
  | false =>
    simp only [Bool.not_false, if_true, Outcome.pure_eq, Outcome.val.injEq] at hb
    rw [← hb]; exact twoInv_reject H
  | true =>
  simp only [Bool.not_true, Bool.false_eq_true, if_false] at hb
  obtain ⟨area, h6, hb⟩ := Outcome.bind_eq_val.1 hb
  by_cases ha : area < 0.01
  · rw [if_pos ha] at hb
    simp only [Outcome.pure_eq, Outcome.val.injEq] at hb
    rw [← hb]; exact twoInv_reject H
  · rw [if_neg ha] at hb
    simp only [Outcome.pure_eq, Outcome.val.injEq] at hb
    rw [← hb]
    refine twoInv_accept H hnf hx ?_ ?_ ⟨(evaluate_selfOps eng _ x).1 h3, (evaluate_selfOps eng _ x).1 h4,
      (evaluate_selfOps eng _ x).1 h5, area, h6, not_lt.1 ha⟩
    · intro e he
      exact (evaluate_selfOps eng e x).1 (((C37_set eng _ _ _).1.1 h1) e he)
    · intro e he
      exact (evaluate_otherOps eng e x).1 (((C37_set eng _ _ _).1.1 h2) e he)

/-- Example 2: the network has 12 entities per set, all of them compatible with each other and with the
boundaries of the cylinder, and at least an area of 0.01 of each one is inside the cylinder. -/
theorem C61_example2 (dom : CylinderDomain E) (order : SamplingStatus → List (ℕ × ℕ))
    (ho : ∀ s, (order s).Perm s.count) (draw1 draw2 : ℕ → Outcome E) (fuel k : ℕ) (s : TwoSets E)
    (h : example2 eng dom order draw1 draw2 fuel = .val (some (k, s))) :
    s.set1.length = 12 ∧ s.set2.length = 12 ∧ s.status.rejected + 24 = k ∧
    MutuallyCompatible eng 0.05 (Real.pi / 6) 0.05 0.05 s.set1 ∧
    MutuallyCompatible eng 0.05 (Real.pi / 6) 0.05 0.05 s.set2 ∧
    CrossCompatible eng 0.05 (2 * Real.pi / 9) 0.05 0.05 s.set1 s.set2 ∧
    ∀ x, x ∈ s.set1 ∨ x ∈ s.set2 →
      Compatible eng 0.05 (Real.pi / 6) 0.05 0.05 dom.top x ∧
      Compatible eng 0.05 (Real.pi / 6) 0.05 0.05 dom.bottom x ∧
      Compatible eng 0.05 (Real.pi / 6) 0.05 0.05 dom.lateral x ∧
      ∃ a, dom.containedArea x = .val a ∧ 0.01 ≤ a := by
  obtain ⟨H, hf⟩ := whileLoop_inv (TwoInv eng draw1 draw2 (InCylinder eng dom) 12 12)
    (fun k s s' H hf hb => pass2_step ho H hf hb) fuel 0 _ (twoInv_init _ _ _ _ _) k s h
  rw [twoInv_not_finished ho H] at hf
  simp only [Outcome.val.injEq, decide_eq_true_eq] at hf
  obtain ⟨⟨r, hr, hk⟩, t1, t2, b1, b2, s1, s2, o, g1, g2⟩ := H
  have e1 : s.set1.length = 12 := by omega
  have e2 : s.set2.length = 12 := by omega
  refine ⟨e1, e2, ?_, pairwise_mutual s1, pairwise_mutual s2, o, ?_⟩
  · rw [hr]; show r + 24 = k; omega
  · rintro x (hx | hx)
    exacts [(g1 x hx).1, (g2 x hx).1]

/-- Example 2: the members of the two sets have been drawn in the passes of the loop. -/
theorem C61_drawn2 (dom : CylinderDomain E) (order : SamplingStatus → List (ℕ × ℕ))
    (ho : ∀ s, (order s).Perm s.count) (draw1 draw2 : ℕ → Outcome E) (fuel k : ℕ) (s : TwoSets E)
    (h : example2 eng dom order draw1 draw2 fuel = .val (some (k, s))) :
    (∀ x ∈ s.set1, ∃ i < k, draw1 i = .val x) ∧ (∀ x ∈ s.set2, ∃ i < k, draw2 i = .val x) := by
  obtain ⟨⟨_, _, _, _, _, _, _, _, g1, g2⟩, -⟩ := whileLoop_inv (TwoInv eng draw1 draw2 (InCylinder eng dom) 12 12)
    (fun k s s' H hf hb => pass2_step ho H hf hb) fuel 0 _ (twoInv_init _ _ _ _ _) k s h
  exact ⟨fun x hx => (g1 x hx).2, fun x hx => (g2 x hx).2⟩

/-- Example 2, with any target counts: if all candidates can be sampled and all geometric computations return values,
the loop never fails. -/
theorem C61_no_failure2 (dom : CylinderDomain E) (order : SamplingStatus → List (ℕ × ℕ))
    (ho : ∀ s, (order s).Perm s.count) (draw1 draw2 : ℕ → Outcome E) (n1 n2 fuel : ℕ)
    (T : Spec.Constraints.Total eng) (hdim : eng.dim ≤ 2) (h1 : ∀ k, (draw1 k).isVal) (h2 : ∀ k, (draw2 k).isVal)
    (harea : ∀ x, (dom.containedArea x).isVal) : (loop2 eng dom order draw1 draw2 n1 n2 fuel).isVal := by
  refine whileLoop_isVal (TwoInv eng draw1 draw2 (InCylinder eng dom) n1 n2) ?_ ?_
    (fun k s s' H hf hb => pass2_step ho H hf hb) fuel 0 _ (twoInv_init _ _ _ _ _)
  · intro k s H; rw [twoInv_not_finished ho H]; trivial
  · intro k s H _
    unfold pass2
    have hb : ∀ a x, (Constraints.evaluate eng (Constraints.run selfOps) a x).isVal := fun a x =>
      evaluate_val_of_iff (evaluate_selfOps eng a x) config_selfOps T hdim
    refine isVal_bind (by split_ifs; exacts [h1 k, h2 k]) fun x _ => ?_
    refine isVal_bind (evaluateSet_isVal fun e _ => hb e x) fun b _ => ?_
    refine isVal_ite (fun _ => trivial) fun _ => ?_
    refine isVal_bind (evaluateSet_isVal fun e _ =>
      evaluate_val_of_iff (evaluate_otherOps eng e x) config_otherOps T hdim) fun b _ => ?_
    refine isVal_ite (fun _ => trivial) fun _ => ?_
    refine isVal_bind (hb _ x) fun b _ => ?_
    refine isVal_ite (fun _ => trivial) fun _ => ?_
    refine isVal_bind (hb _ x) fun b _ => ?_
    refine isVal_ite (fun _ => trivial) fun _ => ?_
    refine isVal_bind (hb _ x) fun b _ => ?_
    refine isVal_ite (fun _ => trivial) fun _ => ?_
    refine isVal_bind (harea x) fun a _ => ?_
    exact isVal_ite (fun _ => trivial) fun _ => trivial

/-- Example 2: if the loop has not been left after some number of passes, all of them but a bounded number have been
rejections. -/
theorem C61_rejections2 (dom : CylinderDomain E) (order : SamplingStatus → List (ℕ × ℕ))
    (ho : ∀ s, (order s).Perm s.count) (draw1 draw2 : ℕ → Outcome E) (n1 n2 fuel : ℕ)
    (h : loop2 eng dom order draw1 draw2 n1 n2 fuel = .val none) :
    ∃ s : TwoSets E, passes (pass2 eng dom draw1 draw2) (TwoSets.init n1 n2) fuel = .val s ∧
      fuel ≤ s.status.rejected + max n1 n2 + max (n1 - 1) n2 ∧
      s.set1.length ≤ max n1 n2 ∧ s.set2.length ≤ max (n1 - 1) n2 := by
  obtain ⟨s, H, hp⟩ := whileLoop_none
    (fun k s => TwoInv eng draw1 draw2 (InCylinder eng dom) n1 n2 k s ∧
      passes (pass2 eng dom draw1 draw2) (TwoSets.init n1 n2) k = .val s)
    (fun k s s' H hf hb => ⟨pass2_step ho H.1 hf hb, by rw [passes, H.2]; exact hb⟩) fuel 0 _
    ⟨twoInv_init _ _ _ _ _, rfl⟩ h
  obtain ⟨⟨r, hr, hk⟩, t1, t2, b1, b2, -⟩ := H
  rw [Nat.zero_add] at hp
  refine ⟨s, hp, ?_, b1, b2⟩
  rw [hr]
  show fuel ≤ r + _ + _
  omega

/-- Non-trivial instance for one pass: a candidate far from the boundaries is accepted. -/
example : pass2 sampleEngine ⟨100, 200, 300, fun _ => .val 1⟩ (fun k => .val (2 * k)) (fun k => .val (2 * k)) 0
    (TwoSets.init 12 12) = .val (TwoSets.accept (TwoSets.init 12 12) 0) := by
  have e : ∀ i : ℕ, i ≠ 0 → Constraints.evaluate sampleEngine (Constraints.run selfOps) (2 * i) (2 * 0)
      = .val true :=
    fun i hi => (evaluate_selfOps sampleEngine _ _).2 (sample_compatible (by norm_num) hi)
  have e1 := e 50 (by norm_num)
  have e2 := e 100 (by norm_num)
  have e3 := e 150 (by norm_num)
  norm_num at e1 e2 e3
  simp only [pass2, TwoSets.init, if_true, Outcome.val_bind, Constraints.evaluateSet, allOf, mul_zero, e1,
    e2, e3, Bool.not_true, Bool.false_eq_true, if_false]
  rw [if_neg (by norm_num)]
  rfl

end Props
