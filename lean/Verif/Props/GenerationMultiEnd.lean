import Verif.Props.GenerationMulti

/-!
# Example 3 ends if its candidates are compatible (C62, C63)
-/

namespace Props
open Verif Frackit Frackit.Appl
open Spec.Network

variable {E ω : Type} {eng : Engine E}

/-- A loop that can do each pass and is finished after `N` passes. -/
theorem whileLoop_reach {σ : Type} {finished : σ → Outcome Bool} {body : ℕ → σ → Outcome σ} (Inv : ℕ → σ → Prop) (N : ℕ)
    (hf : ∀ k s, Inv k s → finished s = .val (decide (N ≤ k)))
    (hb : ∀ k s, Inv k s → k < N → ∃ s', body k s = .val s' ∧ Inv (k + 1) s') :
    ∀ fuel k s, Inv k s → k ≤ N → N < k + fuel → ∃ s', whileLoop finished body fuel k s = .val (some (N, s')) ∧ Inv N s' := by
  intro fuel
  induction fuel with
  | zero => intro k s _ h1 h2; omega
  | succ fuel ih =>
    intro k s H h1 h2
    unfold whileLoop
    rw [hf k s H]
    by_cases hk : N ≤ k
    · obtain rfl : k = N := le_antisymm h1 hk
      rw [decide_eq_true (le_refl k)]
      exact ⟨s, rfl, H⟩
    · rw [decide_eq_false hk]
      obtain ⟨s', e, H'⟩ := hb k s H (by omega)
      simp only [e]
      exact ih (k + 1) s' H' (by omega) (by omega)

/-- Candidates that can be inserted after each other: large enough, compatible with the boundary of the domain and with
the candidates drawn before. -/
structure Candidates (eng : Engine E) (dom : ShapeDomain E) (x : Kind → ℕ → E) : Prop where
  area : ∀ k i, ∃ a, dom.containedArea (k, x k i) = .val a ∧ 350 ≤ a
  faces : ∀ k i, ∀ f ∈ dom.faces, Compatible eng 2.5 (Real.pi / 12) 5 2.5 f (x k i)
  disks : ∀ i j, i < j → Compatible eng 2.5 (5 * Real.pi / 36) 5 2.5 (x .disk i) (x .disk j)
  quads : ∀ i j, i < j → Compatible eng 5 (5 * Real.pi / 36) 5 2.5 (x .quad i) (x .quad j)
  cross : ∀ k l i j, k ≠ l → i < j → Compatible eng 2.5 (2 * Real.pi / 9) 5 2.5 (x k i) (x l j)

/-- The state after `k` passes in which all candidates for unfinished sets were accepted. -/
structure EndInv (x : Kind → ℕ → E) (n1 n2 w k : ℕ) (s : MultiState E ℕ) : Prop where
  disk : s.sampler.samplers .disk = [((), 1)]
  quad : s.sampler.samplers .quad = [((), 2)]
  strategy : s.sampler.strategy = ⟨[1, 2], k % 2⟩
  rng : s.rng = w + k
  net : ∃ D Q r, Holds D Q s.sets ∧ s.status = twoStatus r D.length Q.length n1 n2 ∧
    D.length = min ((k + 1) / 2) n1 ∧ Q.length = min (k / 2) n2 ∧
    (∀ e ∈ D, ∃ i < w + k, e = x .disk i) ∧ ∀ e ∈ Q, ∃ i < w + k, e = x .quad i

theorem matrix_accepts {D Q : List E} {s : EntitySets Kind E} (H : Holds D Q s) (x : E) :
    ((∀ e ∈ D, Compatible eng 2.5 (5 * Real.pi / 36) 5 2.5 e x) →
      (∀ e ∈ Q, Compatible eng 2.5 (2 * Real.pi / 9) 5 2.5 e x) →
      (Matrix.run matrixCalls).evaluate (Constraints.evaluateSet eng) (s.applyOnSet kinds) x 1 = .val true) ∧
    ((∀ e ∈ Q, Compatible eng 5 (5 * Real.pi / 36) 5 2.5 e x) →
      (∀ e ∈ D, Compatible eng 2.5 (2 * Real.pi / 9) 5 2.5 e x) →
      (Matrix.run matrixCalls).evaluate (Constraints.evaluateSet eng) (s.applyOnSet kinds) x 2 = .val true) := by
  obtain ⟨h1, h2⟩ := holds_apply H
  have m1 : ∀ set, s.applyOnSet kinds 1 = some set → set = D := by
    intro set h; rw [h1] at h; split_ifs at h; exact (Option.some.inj h).symm
  have m2 : ∀ set, s.applyOnSet kinds 2 = some set → set = Q := by
    intro set h; rw [h2] at h; split_ifs at h; exact (Option.some.inj h).symm
  simp only [C38_accepts_iff, regs_matrixCalls]
  constructor
  · intro c1 c2
    refine ⟨⟨1, Constraints.run ops31, by simp⟩, fun b c hc set hs e he => ?_⟩
    simp only [List.mem_cons, Prod.mk.injEq, List.not_mem_nil, or_false] at hc
    rcases hc with ⟨⟨_, rfl⟩, rfl⟩ | ⟨⟨h, _⟩, _⟩ | ⟨⟨_, rfl⟩, rfl⟩ | ⟨⟨h, _⟩, _⟩
    · rw [m1 set hs] at he; exact (evaluate_ops31 e x).2 (c1 e he)
    · omega
    · rw [m2 set hs] at he; exact (evaluate_ops3Other e x).2 (c2 e he)
    · omega
  · intro c1 c2
    refine ⟨⟨2, Constraints.run ops32, by simp⟩, fun b c hc set hs e he => ?_⟩
    simp only [List.mem_cons, Prod.mk.injEq, List.not_mem_nil, or_false] at hc
    rcases hc with ⟨⟨h, _⟩, _⟩ | ⟨⟨_, rfl⟩, rfl⟩ | ⟨⟨h, _⟩, _⟩ | ⟨⟨_, rfl⟩, rfl⟩
    · omega
    · rw [m2 set hs] at he; exact (evaluate_ops32 e x).2 (c1 e he)
    · omega
    · rw [m1 set hs] at he; exact (evaluate_ops3Other e x).2 (c2 e he)

theorem call_state (x : Kind → ℕ → E) (sm : Kind → List (Unit × ℕ)) (h1 : sm .disk = [((), 1)])
    (h2 : sm .quad = [((), 2)]) (w k : ℕ) :
    MultiSampler.call Strategy.nextSequential
      (fun k (_ : Unit) (w : ℕ) => ((Outcome.val (k, x k w) : Outcome (Kind × E)), w + 1)) kinds
      (⟨sm, ⟨[1, 2], k % 2⟩⟩ : MultiSampler Kind Unit ℕ) w
    = (.val (if k % 2 = 0 then (1, Kind.disk, x .disk w) else (2, Kind.quad, x .quad w)),
        ⟨sm, ⟨[1, 2], (k + 1) % 2⟩⟩, w + 1) := by
  rcases Nat.mod_two_eq_zero_or_one k with h | h
  · have h' : (k + 1) % 2 = 1 := by omega
    rw [h, h', if_pos rfl]
    unfold MultiSampler.call
    have hse : (⟨sm, ⟨[1, 2], 0⟩⟩ : MultiSampler Kind Unit ℕ).search kinds 1 = some (.disk, ()) := by
      simp [MultiSampler.search, kinds, h1]
    simp only [Strategy.nextSequential, List.isEmpty_cons, Bool.false_eq_true, if_false,
      List.getElem?_cons_zero, hse]
    rfl
  · have h' : (k + 1) % 2 = 0 := by omega
    rw [h, h', if_neg (by norm_num)]
    unfold MultiSampler.call
    have hse : (⟨sm, ⟨[1, 2], 1⟩⟩ : MultiSampler Kind Unit ℕ).search kinds 2 = some (.quad, ()) := by
      simp [MultiSampler.search, kinds, h1, h2]
    simp only [Strategy.nextSequential, List.isEmpty_cons, Bool.false_eq_true, if_false,
      List.getElem?_cons_succ, List.getElem?_cons_zero, hse]
    rfl

theorem endInv_step {dom : ShapeDomain E} {x : Kind → ℕ → E} (hx : Candidates eng dom x) {n1 n2 w k : ℕ}
    {s : MultiState E ℕ} (H : EndInv x n1 n2 w k s) :
    ∃ s', pass3 eng dom (fun k w => (.val (x k w), w + 1)) k s = .val s' ∧ EndInv x n1 n2 w (k + 1) s' := by
  obtain ⟨h1, h2, h3, h4, D, Q, r, g1, g2, g3, g4, g5, g6⟩ := H
  obtain ⟨⟨sm, st⟩, rng, sets, status, area⟩ := s
  simp only at h1 h2 h3 h4 g1 g2
  subst h3 h4 g2
  unfold pass3
  simp only [Outcome.val_bind, call_state x sm h1 h2]
  rcases Nat.mod_two_eq_zero_or_one k with h | h
  · rw [if_pos h]
    simp only [twoStatus_id1, Outcome.val_bind]
    by_cases hd : n1 ≤ D.length
    · simp only [decide_eq_true hd, if_true]
      refine ⟨_, rfl, h1, h2, rfl, by show w + k + 1 = _; omega, D, Q, r + 1, g1, ?_, by omega, by omega,
        fun e he => ?_, fun e he => ?_⟩
      · exact twoStatus_rej _ _ _ _ _
      · obtain ⟨i, hi, e⟩ := g5 e he; exact ⟨i, by omega, e⟩
      · obtain ⟨i, hi, e⟩ := g6 e he; exact ⟨i, by omega, e⟩
    · obtain ⟨a, ha, hl⟩ := hx.area .disk (w + k)
      have m := (matrix_accepts (eng := eng) g1 (x .disk (w + k))).1
        (fun e he => by obtain ⟨i, hi, rfl⟩ := g5 e he; exact hx.disks i _ hi)
        (fun e he => by obtain ⟨i, hi, rfl⟩ := g6 e he; exact hx.cross _ _ i _ (by simp) hi)
      have f : Constraints.evaluateSet eng (Constraints.run ops3Domain) dom.faces (x .disk (w + k)) = .val true :=
        (C37_set eng _ _ _).1.2 fun e he => (evaluate_ops3Domain _ _).2 (hx.faces _ _ e he)
      obtain ⟨a1, a2⟩ := holds_addDisk g1 (x .disk (w + k))
      generalize sets.addPointer Kind.name kinds Kind.disk (x .disk (w + k)) 1 = o at a1 a2
      obtain ⟨o1, o2⟩ := o
      simp only at a1 a2
      subst a1
      simp only [decide_eq_false hd, Bool.false_eq_true, if_false, ha, Outcome.val_bind, if_neg (not_lt.2 hl), m,
        Bool.not_true, f]
      refine ⟨_, rfl, h1, h2, rfl, by show w + k + 1 = _; omega, D ++ [x .disk (w + k)], Q, r, a2, ?_, ?_, by omega,
        fun e he => ?_, fun e he => ?_⟩
      · simp only [twoStatus_inc1, List.length_append, List.length_singleton]
      · simp only [List.length_append, List.length_singleton]; omega
      · rcases List.mem_append.1 he with he | he
        · obtain ⟨i, hi, e⟩ := g5 e he; exact ⟨i, by omega, e⟩
        · exact ⟨w + k, by omega, List.mem_singleton.1 he⟩
      · obtain ⟨i, hi, e⟩ := g6 e he; exact ⟨i, by omega, e⟩
  · rw [if_neg (by omega)]
    simp only [twoStatus_id2, Outcome.val_bind]
    by_cases hd : n2 ≤ Q.length
    · simp only [decide_eq_true hd, if_true]
      refine ⟨_, rfl, h1, h2, rfl, by show w + k + 1 = _; omega, D, Q, r + 1, g1, ?_, by omega, by omega,
        fun e he => ?_, fun e he => ?_⟩
      · exact twoStatus_rej _ _ _ _ _
      · obtain ⟨i, hi, e⟩ := g5 e he; exact ⟨i, by omega, e⟩
      · obtain ⟨i, hi, e⟩ := g6 e he; exact ⟨i, by omega, e⟩
    · obtain ⟨a, ha, hl⟩ := hx.area .quad (w + k)
      have m := (matrix_accepts (eng := eng) g1 (x .quad (w + k))).2
        (fun e he => by obtain ⟨i, hi, rfl⟩ := g6 e he; exact hx.quads i _ hi)
        (fun e he => by obtain ⟨i, hi, rfl⟩ := g5 e he; exact hx.cross _ _ i _ (by simp) hi)
      have f : Constraints.evaluateSet eng (Constraints.run ops3Domain) dom.faces (x .quad (w + k)) = .val true :=
        (C37_set eng _ _ _).1.2 fun e he => (evaluate_ops3Domain _ _).2 (hx.faces _ _ e he)
      obtain ⟨a1, a2⟩ := holds_addQuad g1 (x .quad (w + k))
      generalize sets.addPointer Kind.name kinds Kind.quad (x .quad (w + k)) 2 = o at a1 a2
      obtain ⟨o1, o2⟩ := o
      simp only at a1 a2
      subst a1
      simp only [decide_eq_false hd, Bool.false_eq_true, if_false, ha, Outcome.val_bind, if_neg (not_lt.2 hl), m,
        Bool.not_true, f]
      refine ⟨_, rfl, h1, h2, rfl, by show w + k + 1 = _; omega, D, Q ++ [x .quad (w + k)], r, a2, ?_, by omega, ?_,
        fun e he => ?_, fun e he => ?_⟩
      · simp only [twoStatus_inc2, List.length_append, List.length_singleton]
      · simp only [List.length_append, List.length_singleton]; omega
      · obtain ⟨i, hi, e⟩ := g5 e he; exact ⟨i, by omega, e⟩
      · rcases List.mem_append.1 he with he | he
        · obtain ⟨i, hi, e⟩ := g6 e he; exact ⟨i, by omega, e⟩
        · exact ⟨w + k, by omega, List.mem_singleton.1 he⟩

/-- Candidates that are large enough and compatible with the domain and the ones drawn before are all accepted until
the desired number is reached; disks and quadrilaterals are drawn in turn, the surplus ones are rejected: the loop is left
after twice the larger number of passes (one pass less if the last entity is a disk). -/
theorem C62_terminates (dom : ShapeDomain E) (order : SamplingStatus → List (ℕ × ℕ))
    (ho : ∀ s, (order s).Perm s.count) (x : Kind → ℕ → E) (hx : Candidates eng dom x) (w n1 n2 fuel : ℕ)
    (hfuel : max (2 * n1 - 1) (2 * n2) < fuel) :
    ∃ s, loop3 eng dom order (fun k w => (.val (x k w), w + 1)) w n1 n2 fuel
      = .val (some (max (2 * n1 - 1) (2 * n2), s)) ∧
      s.status.rejected = max (2 * n1 - 1) (2 * n2) - n1 - n2 := by
  obtain ⟨s, hs, H⟩ := whileLoop_reach (finished := fun s : MultiState E ℕ => s.status.finishedOn (order s.status))
    (body := pass3 eng dom fun k w => (.val (x k w), w + 1)) (EndInv x n1 n2 w) (max (2 * n1 - 1) (2 * n2)) (by
      rintro k s ⟨_, _, _, _, D, Q, r, _, g2, g3, g4, _⟩
      rw [genInv_finished (dom := dom) (draw := fun k w => (.val (x k w), w + 1)) (k := k) ho g2]
      congr 1
      rw [decide_eq_decide]
      omega) (fun k s H _ => endInv_step hx H) fuel 0 (MultiState.init (fun k w => (.val (x k w), w + 1)) w n1 n2)
      ⟨rfl, rfl, rfl, rfl, [], [], 0, holds_init, rfl, by simp, by simp, (fun _ h => by cases h), (fun _ h => by cases h)⟩
      (Nat.zero_le _) (by omega)
  have := C62_network dom order ho _ w n1 n2 fuel _ s hs
  obtain ⟨_, _, _, _, h, _⟩ := this
  exact ⟨s, hs, by omega⟩

theorem sample_far_apart {d a m b : ℝ} (hd : d ≤ 5) {i j : ℕ} (h : i + 10 ≤ j ∨ j + 10 ≤ i) :
    Compatible sampleEngine d a m b i j := by
  refine sample_far (by omega) (hd.trans ?_)
  rcases h with h | h
  · rw [abs_sub_comm, le_abs]; left
    have : (i : ℝ) + 10 ≤ j := by exact_mod_cast h
    linarith
  · rw [le_abs]; left
    have : (j : ℝ) + 10 ≤ i := by exact_mod_cast h
    linarith

/-- Disks and quadrilaterals of `sampleEngine` with increasing numbers. -/
def farCandidate : Kind → ℕ → ℕ
  | .disk, w => 100 * w + 100
  | .quad, w => 100 * w + 150

theorem far_candidates : Candidates sampleEngine ⟨[1], fun _ => .val 400⟩ farCandidate := by
  refine ⟨fun k i => ⟨400, rfl, by norm_num⟩, fun k i f hf => ?_, fun i j h => ?_, fun i j h => ?_, fun k l i j h1 h => ?_⟩
  · rw [List.mem_singleton.1 hf]
    cases k <;> exact sample_far_apart (by norm_num) (by simp only [farCandidate]; omega)
  · exact sample_far_apart (by norm_num) (by simp only [farCandidate]; omega)
  · exact sample_far_apart (by norm_num) (by simp only [farCandidate]; omega)
  · cases k <;> cases l <;> exact sample_far_apart (by norm_num) (by simp only [farCandidate]; omega)

/-- Non-trivial instance: a disk and two quadrilaterals, far away from each other and from the domain boundary; the second
disk is rejected since the set of the disks is complete. -/
example : ∃ s, loop3 sampleEngine ⟨[1], fun _ => .val 400⟩ (fun s => s.count)
    (fun k w => (.val (farCandidate k w), w + 1)) 0 1 2 5 = .val (some (4, s)) ∧ s.status.rejected = 1 :=
  C62_terminates ⟨[1], fun _ => .val 400⟩ (fun s => s.count) (fun _ => .refl _) farCandidate far_candidates 0 1 2 5
    (by norm_num)

/-! ## Python -/

/-- The state of the loop in Python after `k` passes in which all candidates for unfinished sets were accepted. -/
structure PyEndInv (x : Kind → ℕ → E) (n1 n2 k : ℕ) (s : PyState E) : Prop where
  into : s.into1 = decide (k % 2 = 0)
  status : ∃ r, s.status = twoStatus r s.disks.length s.quads.length n1 n2
  len1 : s.disks.length = min ((k + 1) / 2) n1
  len2 : s.quads.length = min (k / 2) n2
  mem1 : ∀ e ∈ s.disks, ∃ i < k, e = x .disk i
  mem2 : ∀ e ∈ s.quads, ∃ i < k, e = x .quad i

theorem pyMatrix_accepts {s : PyState E} (x : E) :
    ((∀ e ∈ s.disks, Compatible eng 2.5 (5 * Real.pi / 36) 5 2.5 e x) →
      (∀ e ∈ s.quads, Compatible eng 2.5 (2 * Real.pi / 9) 5 2.5 e x) →
      PyMatrix.evaluate (evalPy eng) (PyMatrix.run pyMatrixCalls) s.dict x 1 = .val true) ∧
    ((∀ e ∈ s.quads, Compatible eng 5 (5 * Real.pi / 36) 5 2.5 e x) →
      (∀ e ∈ s.disks, Compatible eng 2.5 (2 * Real.pi / 9) 5 2.5 e x) →
      PyMatrix.evaluate (evalPy eng) (PyMatrix.run pyMatrixCalls) s.dict x 2 = .val true) := by
  have m1 : ∀ set, s.dict 1 = some set → set = s.disks := fun set h => (Option.some.inj h).symm
  have m2 : ∀ set, s.dict 2 = some set → set = s.quads := fun set h => (Option.some.inj h).symm
  constructor
  · intro c1 c2
    refine (C40_accepts_iff eng pyMatrixCalls _ x 1).2 fun b c hc _ set hs e he => ?_
    rw [regs_pyMatrixCalls] at hc
    simp only [List.mem_cons, Prod.mk.injEq, List.not_mem_nil, or_false] at hc
    rcases hc with ⟨⟨_, rfl⟩, rfl⟩ | ⟨⟨h, _⟩, _⟩ | ⟨⟨_, rfl⟩, rfl⟩ | ⟨⟨h, _⟩, _⟩
    · rw [m1 set hs] at he; exact (evaluate_ops31 e x).2 (c1 e he)
    · omega
    · rw [m2 set hs] at he; exact (evaluate_ops3Other e x).2 (c2 e he)
    · omega
  · intro c1 c2
    refine (C40_accepts_iff eng pyMatrixCalls _ x 2).2 fun b c hc _ set hs e he => ?_
    rw [regs_pyMatrixCalls] at hc
    simp only [List.mem_cons, Prod.mk.injEq, List.not_mem_nil, or_false] at hc
    rcases hc with ⟨⟨h, _⟩, _⟩ | ⟨⟨_, rfl⟩, rfl⟩ | ⟨⟨h, _⟩, _⟩ | ⟨⟨_, rfl⟩, rfl⟩
    · omega
    · rw [m2 set hs] at he; exact (evaluate_ops32 e x).2 (c1 e he)
    · omega
    · rw [m1 set hs] at he; exact (evaluate_ops3Other e x).2 (c2 e he)

theorem pyEndInv_step {dom : ShapeDomain E} {x : Kind → ℕ → E} (hx : Candidates eng dom x) {n1 n2 k : ℕ}
    {s : PyState E} (H : PyEndInv x n1 n2 k s) :
    ∃ s', passPy eng dom (fun k i => .val (x k i)) k s = .val s' ∧ PyEndInv x n1 n2 (k + 1) s' := by
  obtain ⟨h1, ⟨r, h2⟩, h3, h4, h5, h6⟩ := H
  have f : ∀ kd, evalPy eng (Constraints.run ops3Domain) dom.faces (x kd k) = .val true := fun kd =>
    (pyEval_true eng _ _ _).2 fun e he => (evaluate_ops3Domain _ _).2 (hx.faces _ _ e he)
  unfold passPy
  rcases Nat.mod_two_eq_zero_or_one k with h | h
  · have hi : s.into1 = true := by rw [h1, h]; rfl
    have hn : decide ((k + 1) % 2 = 0) = false := decide_eq_false (by omega)
    simp only [hi, if_true, Outcome.val_bind, h2, twoStatus_id1]
    by_cases hd : n1 ≤ s.disks.length
    · simp only [decide_eq_true hd, if_true]
      refine ⟨_, rfl, hn.symm, ⟨r + 1, twoStatus_rej _ _ _ _ _⟩, by show s.disks.length = _; omega,
        by show s.quads.length = _; omega, fun e he => ?_, fun e he => ?_⟩
      · obtain ⟨i, hi, e⟩ := h5 e he; exact ⟨i, by omega, e⟩
      · obtain ⟨i, hi, e⟩ := h6 e he; exact ⟨i, by omega, e⟩
    · obtain ⟨a, ha, hl⟩ := hx.area .disk k
      have m := (pyMatrix_accepts (eng := eng) (s := s) (x .disk k)).1
        (fun e he => by obtain ⟨i, hi, rfl⟩ := h5 e he; exact hx.disks i _ hi)
        (fun e he => by obtain ⟨i, hi, rfl⟩ := h6 e he; exact hx.cross _ _ i _ (by simp) hi)
      simp only [decide_eq_false hd, Bool.false_eq_true, if_false, ha, Outcome.val_bind, if_neg (not_lt.2 hl), m,
        Bool.not_true, f]
      refine ⟨_, rfl, hn.symm, ⟨r, ?_⟩, ?_, by show s.quads.length = _; omega, fun e he => ?_, fun e he => ?_⟩
      · simp only [twoStatus_inc1, List.length_append, List.length_singleton]
      · simp only [List.length_append, List.length_singleton]; omega
      · rcases List.mem_append.1 he with he | he
        · obtain ⟨i, hi, e⟩ := h5 e he; exact ⟨i, by omega, e⟩
        · exact ⟨k, by omega, List.mem_singleton.1 he⟩
      · obtain ⟨i, hi, e⟩ := h6 e he; exact ⟨i, by omega, e⟩
  · have hi : s.into1 = false := by rw [h1, h]; rfl
    have hn : decide ((k + 1) % 2 = 0) = true := decide_eq_true (by omega)
    simp only [hi, Bool.false_eq_true, if_false, Outcome.val_bind, h2, twoStatus_id2]
    by_cases hd : n2 ≤ s.quads.length
    · simp only [decide_eq_true hd, if_true]
      refine ⟨_, rfl, hn.symm, ⟨r + 1, twoStatus_rej _ _ _ _ _⟩, by show s.disks.length = _; omega,
        by show s.quads.length = _; omega, fun e he => ?_, fun e he => ?_⟩
      · obtain ⟨i, hi, e⟩ := h5 e he; exact ⟨i, by omega, e⟩
      · obtain ⟨i, hi, e⟩ := h6 e he; exact ⟨i, by omega, e⟩
    · obtain ⟨a, ha, hl⟩ := hx.area .quad k
      have m := (pyMatrix_accepts (eng := eng) (s := s) (x .quad k)).2
        (fun e he => by obtain ⟨i, hi, rfl⟩ := h6 e he; exact hx.quads i _ hi)
        (fun e he => by obtain ⟨i, hi, rfl⟩ := h5 e he; exact hx.cross _ _ i _ (by simp) hi)
      simp only [decide_eq_false hd, Bool.false_eq_true, if_false, ha, Outcome.val_bind, if_neg (not_lt.2 hl), m,
        Bool.not_true, f, OfNat.ofNat_ne_one]
      refine ⟨_, rfl, hn.symm, ⟨r, ?_⟩, by show s.disks.length = _; omega, ?_, fun e he => ?_, fun e he => ?_⟩
      · simp only [twoStatus_inc2, List.length_append, List.length_singleton]
      · simp only [List.length_append, List.length_singleton]; omega
      · obtain ⟨i, hi, e⟩ := h5 e he; exact ⟨i, by omega, e⟩
      · rcases List.mem_append.1 he with he | he
        · obtain ⟨i, hi, e⟩ := h6 e he; exact ⟨i, by omega, e⟩
        · exact ⟨k, by omega, List.mem_singleton.1 he⟩

/-- The same for the example in Python. -/
theorem C63_terminates (dom : ShapeDomain E) (order : SamplingStatus → List (ℕ × ℕ))
    (ho : ∀ s, (order s).Perm s.count) (x : Kind → ℕ → E) (hx : Candidates eng dom x) (n1 n2 fuel : ℕ)
    (hfuel : max (2 * n1 - 1) (2 * n2) < fuel) :
    ∃ s, loopPy eng dom order (fun k i => .val (x k i)) n1 n2 fuel
      = .val (some (max (2 * n1 - 1) (2 * n2), s)) ∧
      s.status.rejected = max (2 * n1 - 1) (2 * n2) - n1 - n2 := by
  obtain ⟨s, hs, H⟩ := whileLoop_reach (finished := fun s : PyState E => s.status.finishedOn (order s.status))
    (body := passPy eng dom fun k i => .val (x k i)) (PyEndInv x n1 n2) (max (2 * n1 - 1) (2 * n2)) (by
      rintro k s ⟨_, ⟨r, g2⟩, g3, g4, _⟩
      have h' := ho s.status
      rw [g2] at h' ⊢
      rw [twoStatus_finished _ _ _ _ _ _ h']
      congr 1
      rw [decide_eq_decide]
      omega) (fun k s H _ => pyEndInv_step hx H) fuel 0
      ⟨[], [], (SamplingStatus.init.setTargetCount 1 n1).setTargetCount 2 n2, true, 0⟩
      ⟨rfl, ⟨0, rfl⟩, by simp, by simp, (fun _ h => by cases h), (fun _ h => by cases h)⟩
      (Nat.zero_le _) (by omega)
  have := C63_network dom order ho _ n1 n2 fuel _ s hs
  exact ⟨s, hs, by omega⟩

/-- Example 3 in Python with its 12 disks and 16 quadrilaterals ends after 32 passes with such candidates. -/
example : ∃ s, example3Py sampleEngine ⟨[1], fun _ => .val 400⟩ (fun s => s.count)
    (fun k i => .val (farCandidate k i)) 100 = .val (some (32, s)) ∧ s.status.rejected = 4 :=
  C63_terminates ⟨[1], fun _ => .val 400⟩ (fun s => s.count) (fun _ => .refl _) farCandidate far_candidates 12 16 100
    (by norm_num)

end Props
