import Verif.Props.BuildLifecycle
import Verif.Model.EntityNetwork.BuilderIds
import Mathlib.Tactic.NormNum
import Mathlib.Tactic.IntervalCases

/-!
# C110: identifiers of sub-domains
-/

namespace Props
open Verif Frackit Spec.Builder
open Frackit.Builder (IsEmpty Op)

section
variable {Sh K : Type} [DecidableEq Sh] [DecidableEq K] (key : Sh → K) (occ : Occ Sh) (big : ℝ)

/-- State and registrations after a history, with the conversions of identifiers. -/
noncomputable def runIds (ops : List (Op Sh)) : Builder Sh × Reg Sh :=
  ops.foldl (fun x op => ((Builder.stepIds key occ big x.1 op).2,
    record x.2 op (Builder.stepIds key occ big x.1 op).1)) (Builder.init, ⟨[], []⟩)

/-- The identifier passed to a call is smaller than `n`. -/
def IdBelow (n : ℕ) : Op Sh → Prop
  | .addSubDomain _ _ i => i < n
  | .addConfiningSubDomain _ _ i => i < n
  | .addEntity _ _ i => i < n
  | _ => True

theorem storedId_small {i : ℕ} (h : i < 2 ^ 31) : Builder.storedId i = i := by
  unfold Builder.storedId Builder.idToInt Builder.intToId
  have h1 : i % 2 ^ 32 = i := Nat.mod_eq_of_lt (by omega)
  rw [h1, if_pos h]
  have h2 : ((i : ℤ) % 2 ^ 64) = i := Int.emod_eq_of_lt (by omega) (by omega)
  rw [h2]; simp

theorem storedId_eq {i : ℕ} (h : i < 2 ^ 64) : Builder.storedId i = i ↔ i < 2 ^ 31 ∨ 2 ^ 64 - 2 ^ 31 ≤ i := by
  unfold Builder.storedId Builder.idToInt Builder.intToId
  split <;> omega

/-- All registrations have identifiers that fit into `int`. -/
def SmallIds (b : Builder Sh) : Prop :=
  ∀ i, b.subDomains i ≠ none ∨ b.networks i ≠ none → i < 2 ^ 31

theorem SmallIds.same {b b' : Builder Sh} (h : SmallIds b) (hs : SameData b b') : SmallIds b' := by
  intro i hi
  rw [hs.subDomains, hs.networks] at hi
  exact h i hi

theorem confineOne_small {o : Orders} {eps : ℝ} {b : Builder Sh} {i : ℕ} (hs : SmallIds b)
    (h : ∀ j, b.fragLists j ≠ none → j < 2 ^ 31) :
    ∀ j, (Builder.confineOne key occ o eps b i).2.fragLists j ≠ none → j < 2 ^ 31 := by
  unfold Builder.confineOne
  simp only
  have key : ∀ (x : Option (List Sh)), b.subDomains i ≠ none →
      ∀ j, Function.update b.fragLists i x j ≠ none → j < 2 ^ 31 := by
    intro x hi j hj
    by_cases e : j = i
    · subst e; exact hs j (Or.inl hi)
    · rw [Function.update_of_ne e] at hj; exact h j hj
  repeat' split
  all_goals first
    | exact h
    | (refine key _ (by simp_all))

theorem confine_small {o : Orders} {eps : ℝ} (ids : List ℕ) : ∀ {b : Builder Sh}, SmallIds b →
    (∀ j, b.fragLists j ≠ none → j < 2 ^ 31) →
    ∀ j, (Builder.confine key occ o eps b ids).2.fragLists j ≠ none → j < 2 ^ 31 := by
  induction ids with
  | nil => intro b _ h; exact h
  | cons i t ih =>
    intro b hs h
    have h1 := confineOne_small key occ (o := o) (eps := eps) (i := i) hs h
    have h2 := hs.same (confineOne_data key occ o eps b i)
    simp only [Builder.confine]
    cases hc : Builder.confineOne key occ o eps b i with
    | mk r b' =>
      rw [hc] at h1 h2
      cases r with
      | val u => exact ih h2 h1
      | thrown e => exact h1
      | nan => exact h1
      | ub => exact h1

theorem fragmentIds_eq {o : Orders} {eps : ℝ} {only : Bool} {b : Builder Sh} (hs : SmallIds b)
    (h : ∀ j, b.fragLists j ≠ none → j < 2 ^ 31) :
    Builder.fragmentIds key occ o eps only b = Builder.fragment key occ o eps only b := by
  have e1 : (b.allEntities o).map (fun p => (p.1, Builder.storedId p.2)) = b.allEntities o := by
    rw [List.map_congr_left (g := id), List.map_id]
    intro p hp
    simp only [Builder.allEntities, List.mem_flatMap, List.mem_map] at hp
    obtain ⟨i, -, s, hsm, rfl⟩ := hp
    simp only [id, Prod.mk.injEq, true_and]
    refine storedId_small (h i fun e => ?_)
    rw [e] at hsm; simp at hsm
  have e2 : ∀ l : List ℕ, (l.filterMap (fun i => (b.subDomains i).map (fun s => (s, i)))).map
      (fun p => (p.1, Builder.storedId p.2)) =
      l.filterMap (fun i => (b.subDomains i).map (fun s => (s, i))) := by
    intro l
    rw [List.map_congr_left (g := id), List.map_id]
    intro p hp
    simp only [List.mem_filterMap, Option.map_eq_some_iff] at hp
    obtain ⟨i, -, s, hsm, rfl⟩ := hp
    simp only [id, Prod.mk.injEq, true_and]
    exact storedId_small (hs i (Or.inl (by rw [hsm]; simp)))
  unfold Builder.fragmentIds Builder.fragment
  simp only [e1]
  cases only
  · simp only [Bool.false_eq_true, if_false, e2]
    rfl
  · simp only [if_true, List.map_nil]
    rfl

theorem prepareIds_eq {o : Orders} {only : Bool} {b : Builder Sh} (hs : SmallIds b) :
    Builder.prepareIds key occ big o only b = Builder.prepare key occ big o only b := by
  have h0 : SameData b (Builder.initializeBuild key b.clearBuild) := ⟨rfl, rfl, rfl, rfl, rfl, rfl⟩
  have hs1 : SmallIds ((Builder.initializeBuild key b.clearBuild).getEpsilon occ big o) :=
    hs.same (h0.trans (getEpsilon_data occ big o _))
  have hf : ∀ j, ((Builder.initializeBuild key b.clearBuild).getEpsilon occ big o).fragLists j ≠ none →
      j < 2 ^ 31 := by
    have e : ((Builder.initializeBuild key b.clearBuild).getEpsilon occ big o).fragLists =
        (Builder.initializeBuild key b.clearBuild).fragLists := by
      unfold Builder.getEpsilon; split <;> rfl
    rw [e]
    intro j hj
    refine hs j ?_
    by_contra hc
    push Not at hc
    apply hj
    simp [Builder.initializeBuild, Builder.clearBuild, hc.1, hc.2]
  unfold Builder.prepareIds Builder.prepare
  simp only
  generalize (Builder.initializeBuild key b.clearBuild).getEpsilon occ big o = b1 at *
  have h2 := confine_small key occ (o := o) (eps := b1.eps.getD 0) o.networks hs1 hf
  have h3 := hs1.same (confine_data key occ o (b1.eps.getD 0) o.networks b1)
  cases hc : Builder.confine key occ o (b1.eps.getD 0) b1 o.networks with
  | mk r b2 =>
    rw [hc] at h2 h3
    cases r with
    | val u => exact fragmentIds_eq key occ h3 h2
    | thrown e => rfl
    | nan => rfl
    | ub => rfl

theorem buildContainedIds_eq {o : Orders} {b : Builder Sh} (hs : SmallIds b) :
    Builder.buildContainedIds key occ big o b = Builder.buildContained key occ big o b := by
  unfold Builder.buildContainedIds Builder.buildContained
  rw [prepareIds_eq key occ big hs]
  rfl

theorem buildNetworkIds_eq {o : Orders} {b : Builder Sh} (hs : SmallIds b) :
    Builder.buildNetworkIds key occ big o b = Builder.buildNetwork key occ big o b := by
  unfold Builder.buildNetworkIds Builder.buildNetwork
  rw [prepareIds_eq key occ big hs]
  rfl

theorem stepIds_eq {b : Builder Sh} (hs : SmallIds b) (op : Op Sh) :
    Builder.stepIds key occ big b op = Builder.step key occ big b op := by
  cases op <;> simp only [Builder.stepIds, Builder.step, buildContainedIds_eq key occ big hs,
    buildNetworkIds_eq key occ big hs]

theorem addSubDomain_small {b : Builder Sh} (hs : SmallIds b) (d : Outcome ℤ) (s : Outcome Sh) {i : ℕ}
    (hi : i < 2 ^ 31) : SmallIds (b.addSubDomain d s i).2 := by
  unfold Builder.addSubDomain
  repeat' split
  all_goals first
    | exact hs
    | (intro j hj
       by_cases e : j = i
       · subst e; exact hi
       · simp only [Function.update_of_ne e] at hj; exact hs j hj)

theorem step_small {b : Builder Sh} (hs : SmallIds b) {op : Op Sh} (ho : IdBelow (2 ^ 31) op) :
    SmallIds (Builder.step key occ big b op).2 := by
  cases op with
  | addSubDomain d s i => exact addSubDomain_small hs d s ho
  | addConfiningSubDomain d s i =>
    have h := addSubDomain_small hs d s ho
    simp only [Builder.step, Builder.addConfiningSubDomain]
    cases hc : b.addSubDomain d s i with
    | mk r b' =>
      rw [hc] at h
      cases r <;> exact h
  | addEntity d s i =>
    simp only [Builder.step, Builder.addSubDomainEntity]
    repeat' split
    all_goals first
      | exact hs
      | (intro j hj
         by_cases e : j = i
         · subst e; exact ho
         · simp only [Function.update_of_ne e] at hj; exact hs j hj)
  | clear => intro i hi; simp [Builder.step, Builder.clear] at hi
  | setEpsilon e => exact hs
  | setDefaultEpsilon o => exact hs
  | setConfineToSubDomainUnion v => exact hs
  | buildContained o => exact hs.same (buildContained_data key occ big o b)
  | buildNetwork o => exact hs.same (buildNetwork_data key occ big o b)

theorem runIds_snoc (ops : List (Op Sh)) (op : Op Sh) :
    runIds key occ big (ops ++ [op]) =
      ((Builder.stepIds key occ big (runIds key occ big ops).1 op).2,
        record (runIds key occ big ops).2 op (Builder.stepIds key occ big (runIds key occ big ops).1 op).1) := by
  simp [runIds]

theorem run_small (ops : List (Op Sh)) (h : ∀ op ∈ ops, IdBelow (2 ^ 31) op) :
    runIds key occ big ops = runReg key occ big ops ∧ SmallIds (runReg key occ big ops).1 := by
  induction ops using List.reverseRecOn with
  | nil => exact ⟨rfl, fun i hi => by simp [runReg, Builder.init] at hi⟩
  | append_singleton ops op ih =>
    obtain ⟨e, hs⟩ := ih (fun x hx => h x (by simp [hx]))
    rw [runIds_snoc, runReg_snoc, e, stepIds_eq key occ big hs]
    exact ⟨rfl, step_small key occ big hs (h op (by simp))⟩

end

/-! ## C110 Identifiers of sub-domains -/

/-- The full claim: for every history with identifiers of the type of the interface (64 bits), if no shape
is registered for two sub-domains and no operation of the CAD kernel fails, the network can be built and
the fragments are found under the identifier of the sub-domain they stem from. -/
def C110_full : Prop :=
  ∀ (Sh K : Type) [DecidableEq Sh] [DecidableEq K] (key : Sh → K) (occ : Occ Sh) (big : ℝ)
    (ops : List (Op Sh)) (o : Orders), (∀ op ∈ ops, IdBelow (2 ^ 64) op) →
    ValidOrders o (runIds key occ big ops).1 →
    NoSharedShapes key occ (runIds key occ big ops).1
      (o.subDomains.filterMap (runIds key occ big ops).1.subDomains)
      (tolerance occ big o (runIds key occ big ops).1) →
    DistinctDomains key (runIds key occ big ops).1 →
    KernelOk occ (tolerance occ big o (runIds key occ big ops).1) →
    (runIds key occ big ops).2.entities ≠ [] → (runIds key occ big ops).2.domains ≠ [] →
    ∃ n, (Builder.buildContainedIds key occ big o (runIds key occ big ops).1).1 = .val n ∧
      FragmentsFromEntities key occ (runIds key occ big ops).1 o
        (tolerance occ big o (runIds key occ big ops).1) n

variable {Sh K : Type} [DecidableEq Sh] [DecidableEq K] (key : Sh → K) (occ : Occ Sh) (big : ℝ)

/-- The claim holds if all identifiers are smaller than `2 ^ 31` (missing: larger identifiers, for which
it does not hold, see `C110_disproof`). -/
theorem C110_small_ids_partial (ops : List (Op Sh)) (o : Orders) (hi : ∀ op ∈ ops, IdBelow (2 ^ 31) op)
    (hv : ValidOrders o (runIds key occ big ops).1)
    (hns : NoSharedShapes key occ (runIds key occ big ops).1
      (o.subDomains.filterMap (runIds key occ big ops).1.subDomains)
      (tolerance occ big o (runIds key occ big ops).1))
    (hdd : DistinctDomains key (runIds key occ big ops).1)
    (hk : KernelOk occ (tolerance occ big o (runIds key occ big ops).1))
    (he : (runIds key occ big ops).2.entities ≠ []) (hd : (runIds key occ big ops).2.domains ≠ []) :
    ∃ n, (Builder.buildContainedIds key occ big o (runIds key occ big ops).1).1 = .val n ∧
      FragmentsFromEntities key occ (runIds key occ big ops).1 o
        (tolerance occ big o (runIds key occ big ops).1) n := by
  obtain ⟨e, hs⟩ := run_small key occ big ops hi
  rw [e] at hv hns hdd hk he hd ⊢
  have h := (C44_build_succeeds key occ big ops o hv hk he).2 hd
  rw [buildContainedIds_eq key occ big hs]
  cases hn : (Builder.buildContained key occ big o (runReg key occ big ops).1).1 with
  | val n => exact ⟨n, rfl, C44_contained_partial key occ big ops o n hv hns hdd hn⟩
  | thrown x => rw [hn] at h; exact h.elim
  | nan => rw [hn] at h; exact h.elim
  | ub => rw [hn] at h; exact h.elim

/-- With identifiers smaller than `2 ^ 31`, all calls of a history have the result they have with
identifiers of unlimited size. -/
theorem C110_refines (ops : List (Op Sh)) (hi : ∀ op ∈ ops, IdBelow (2 ^ 31) op) (op : Op Sh) :
    runIds key occ big ops = runReg key occ big ops ∧
    Builder.stepIds key occ big (runIds key occ big ops).1 op =
      Builder.step key occ big (runReg key occ big ops).1 op ∧
    (∀ o, (Builder.buildContainedIds key occ big o (runIds key occ big ops).1).1 =
      (Builder.buildContained key occ big o (runReg key occ big ops).1).1) ∧
    ∀ o, (Builder.buildNetworkIds key occ big o (runIds key occ big ops).1).1 =
      (Builder.buildNetwork key occ big o (runReg key occ big ops).1).1 := by
  obtain ⟨e, hs⟩ := run_small key occ big ops hi
  rw [e]
  exact ⟨rfl, stepIds_eq key occ big hs op, fun o => by rw [buildContainedIds_eq key occ big hs],
    fun o => by rw [buildNetworkIds_eq key occ big hs]⟩

/-! ### Larger identifiers -/

/-- A sub-domain (shape 10) and a face (shape 1) in it, with the given identifier. -/
def oneDomainOps (i : ℕ) : List (Op ℕ) :=
  [.setEpsilon 1, .addConfiningSubDomain (.val 3) (.val 10) i, .addEntity (.val 2) (.val 1) i]

/-- State after `oneDomainOps`. -/
noncomputable def oneDomainState (i : ℕ) : Builder ℕ :=
  { (Builder.init : Builder ℕ) with
    eps := some 1, epsIsSet := true, domainDim := some 3, entityDim := some 2
    subDomains := Function.update (fun _ => none) i (some 10)
    bounds := Function.update (fun _ => none) i (some true)
    networks := Function.update (fun _ => none) i (some [1]) }

theorem oneDomain_run (i : ℕ) : runIds id cutOcc 1 (oneDomainOps i) =
    (oneDomainState i, ⟨[(i, 3, 10)], [(i, 2, 1)]⟩) := by
  have n0 : ¬ Builder.IsEmpty (Function.update (fun _ => none) i (some 10) : ℕ → Option ℕ) :=
    fun h => by have := h i; simp at this
  have em1 : Builder.IsEmpty (fun _ => none : ℕ → Option ℕ) := fun _ => rfl
  have em2 : Builder.IsEmpty (fun _ => none : ℕ → Option (List ℕ)) := fun _ => rfl
  simp [runIds, oneDomainOps, Builder.stepIds, Builder.step, Builder.setEpsilon,
    Builder.addConfiningSubDomain, Builder.addSubDomain, Builder.addSubDomainEntity, Builder.init, em1, em2,
    n0, oneDomainState, record]

/-- The orders of traversal of one sub-domain. -/
def oneOrder (i : ℕ) : Orders := ⟨[i], [i], [i], [i]⟩

theorem oneDomain_orders (i : ℕ) : ValidOrders (oneOrder i) (oneDomainState i) := by
  refine ⟨⟨by simp [oneOrder], fun j => ?_⟩, ⟨by simp [oneOrder], fun j => ?_⟩,
    ⟨by simp [oneOrder], fun j => ?_⟩, ⟨by simp [oneOrder], fun j => ?_⟩⟩
  all_goals
    by_cases h : j = i
    · subst h; simp [oneOrder, oneDomainState]
    · simp [oneOrder, oneDomainState, h]

theorem oneDomain_distinct (i : ℕ) : NoSharedShapes id cutOcc (oneDomainState i) [10] 1 ∧
    DistinctDomains id (oneDomainState i) := by
  constructor
  · intro j k hjk s hs t ht
    by_cases h0 : j = i
    · have h1 : k ≠ i := fun e => hjk (h0.trans e.symm)
      simp [oneDomainState, h1] at ht
    · simp [oneDomainState, h0] at hs
  · intro j k s t hs ht _
    by_cases h0 : j = i
    · by_cases h1 : k = i
      · rw [h0, h1]
      · simp [oneDomainState, h1] at ht
    · simp [oneDomainState, h0] at hs

/-- The build fails for every identifier that is changed by the conversions. -/
theorem large_id_fails {i : ℕ} (h : Builder.storedId i ≠ i) :
    (Builder.buildContainedIds id cutOcc 1 (oneOrder i) (oneDomainState i)).1 = .thrown "out_of_range" := by
  simp [Builder.buildContainedIds, Builder.prepareIds, Builder.getEpsilon, Builder.initializeBuild,
    Builder.clearBuild, oneDomainState, oneOrder, Builder.confine, Builder.confineOne, cutOcc,
    Builder.confineLoop, DMap.find, DMap.bind, Builder.collect, Builder.addFragment, Builder.fragmentIds,
    Builder.allEntities, Builder.bindAll, Builder.fragmentLoop, Builder.init, h]

theorem C110_disproof : ¬ C110_full := by
  intro H
  have hr := oneDomain_run (2 ^ 31)
  obtain ⟨n, hn, -⟩ := H ℕ ℕ id cutOcc 1 (oneDomainOps (2 ^ 31)) (oneOrder (2 ^ 31))
    (by intro op hop; simp only [oneDomainOps, List.mem_cons, List.not_mem_nil, or_false] at hop
        rcases hop with rfl | rfl | rfl <;> simp [IdBelow])
    (by rw [hr]; exact oneDomain_orders _)
    (by
      rw [hr]
      have e : (oneOrder (2 ^ 31)).subDomains.filterMap (oneDomainState (2 ^ 31)).subDomains = [10] := by
        simp [oneOrder, oneDomainState]
      have e' : tolerance cutOcc 1 (oneOrder (2 ^ 31)) (oneDomainState (2 ^ 31)) = 1 := by
        simp [tolerance, oneDomainState]
      rw [e, e']
      exact (oneDomain_distinct _).1)
    (by rw [hr]; exact (oneDomain_distinct _).2)
    ⟨fun _ _ => trivial, fun _ => trivial, fun _ => trivial⟩
    (by rw [hr]; simp) (by rw [hr]; simp)
  rw [hr, large_id_fails (by rw [Ne, storedId_eq (by norm_num)]; norm_num)] at hn
  cases hn

/-- Non-trivial instance: with a small identifier, all hypotheses of `C110_small_ids_partial` are met. -/
example : ∃ n, (Builder.buildContainedIds id cutOcc 1 (oneOrder 7) (oneDomainState 7)).1 = .val n ∧
    FragmentsFromEntities id cutOcc (oneDomainState 7) (oneOrder 7)
      (tolerance cutOcc 1 (oneOrder 7) (oneDomainState 7)) n := by
  have hr := oneDomain_run 7
  have h := C110_small_ids_partial id cutOcc 1 (oneDomainOps 7) (oneOrder 7)
    (by intro op hop; simp only [oneDomainOps, List.mem_cons, List.not_mem_nil, or_false] at hop
        rcases hop with rfl | rfl | rfl <;> simp [IdBelow])
    (by rw [hr]; exact oneDomain_orders _)
    (by
      rw [hr]
      have e : (oneOrder 7).subDomains.filterMap (oneDomainState 7).subDomains = [10] := by
        simp [oneOrder, oneDomainState]
      have e' : tolerance cutOcc 1 (oneOrder 7) (oneDomainState 7) = 1 := by
        simp [tolerance, oneDomainState]
      rw [e, e']
      exact (oneDomain_distinct _).1)
    (by rw [hr]; exact (oneDomain_distinct _).2)
    ⟨fun _ _ => trivial, fun _ => trivial, fun _ => trivial⟩
    (by rw [hr]; simp) (by rw [hr]; simp)
  rwa [hr] at h

example : ∃ n, (Builder.buildContainedIds id cutOcc 1 (oneOrder 7) (oneDomainState 7)).1 = .val n ∧
    n.entityFragments 7 = some [5, 6] ∧ n.indexMaps 7 = some [(5, 1), (6, 1)] ∧
    n.subDomainFragments 7 = some [10] := by
  refine ⟨_, rfl, ?_, ?_, ?_⟩ <;> rfl

/-- Two sub-domains without entities, one of them with an identifier of 33 bits. -/
noncomputable def twoDomainState : Builder ℕ :=
  { (Builder.init : Builder ℕ) with
    eps := some 1, epsIsSet := true, domainDim := some 3, entityDim := some 2
    subDomains := fun i => if i = 1 then some 10 else if i = 2 ^ 32 + 1 then some 20 else none
    bounds := fun i => if i = 1 then some true else if i = 2 ^ 32 + 1 then some true else none
    networks := fun i => if i = 1 then some [1] else none }

/-- Without an error, the fragments of the sub-domain `2 ^ 32 + 1` are reported as fragments of the
sub-domain `1`. -/
theorem C110_wrong_domain : ∃ n, (Builder.buildContainedIds id cutOcc 1
      ⟨[1, 2 ^ 32 + 1], [1], [1, 2 ^ 32 + 1], [1, 2 ^ 32 + 1]⟩ twoDomainState).1 = .val n ∧
    n.subDomainFragments 1 = some [10, 20] ∧ n.subDomainFragments (2 ^ 32 + 1) = none := by
  have hs : Builder.storedId 4294967297 = 1 := by
    norm_num [Builder.storedId, Builder.idToInt, Builder.intToId]
  have hs1 : Builder.storedId 1 = 1 := storedId_small (by norm_num)
  simp [Builder.buildContainedIds, Builder.prepareIds, Builder.getEpsilon, Builder.initializeBuild,
    Builder.clearBuild, twoDomainState, Builder.confine, Builder.confineOne, cutOcc,
    Builder.confineLoop, DMap.find, DMap.bind, Builder.collect, Builder.addFragment, Builder.fragmentIds,
    Builder.allEntities, Builder.bindAll, Builder.fragmentLoop, Builder.domainLoop, Builder.init, hs, hs1]

end Props
