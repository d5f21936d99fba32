import Verif.Model.EntityNetwork.Access
import Verif.Props.Export

/-!
# Access to built networks (C132) and their lifetime (C133)
-/

namespace Props
open Verif Frackit Spec.Builder
open Frackit.Builder (IsEmpty Op ContainedNetwork OwnerCall Owner at')

section
variable {Sh K : Type} [DecidableEq Sh] [DecidableEq K] (key : Sh → K) (occ : Occ Sh) (big : ℝ)

/-- Entries of the containers of fragments are made for registered ids only. -/
def EntriesIn (R : ℕ → Prop) (b : Builder Sh) : Prop :=
  (∀ i, b.fragLists i ≠ none → R i) ∧ ∀ i, b.fragMaps i ≠ none → R i

theorem update_entry {α : Type} {R : ℕ → Prop} {m : ℕ → Option α} {i : ℕ} {x : α} (h : ∀ j, m j ≠ none → R j)
    (hi : R i) (j : ℕ) (hj : Function.update m i (some x) j ≠ none) : R j := by
  by_cases e : j = i
  · rwa [e]
  · rw [Function.update_of_ne e] at hj
    exact h j hj

theorem confineOne_entries {R : ℕ → Prop} (o : Orders) (eps : ℝ) (b : Builder Sh) (i : ℕ) (h : EntriesIn R b)
    (hi : b.subDomains i ≠ none → R i) : EntriesIn R (Builder.confineOne key occ o eps b i).2 := by
  unfold Builder.confineOne
  simp only
  cases hs : b.subDomains i with
  | none => exact h
  | some sd =>
    have hr := hi (by rw [hs]; simp)
    simp only
    repeat' split
    all_goals first
      | exact h
      | exact ⟨fun j hj => update_entry h.1 hr j hj, fun j hj => update_entry h.2 hr j hj⟩

theorem confine_entries {R : ℕ → Prop} (o : Orders) (eps : ℝ) (ids : List ℕ) : ∀ b : Builder Sh, EntriesIn R b →
    (∀ i, b.subDomains i ≠ none → R i) → EntriesIn R (Builder.confine key occ o eps b ids).2 := by
  induction ids with
  | nil => intro b h _; exact h
  | cons i t ih =>
    intro b h hs
    have h1 := confineOne_entries key occ o eps b i h (hs i)
    have h2 := confineOne_data key occ o eps b i
    simp only [Builder.confine]
    cases hc : Builder.confineOne key occ o eps b i with
    | mk r b' =>
      rw [hc] at h1 h2
      cases r with
      | val u => exact ih b' h1 (by rw [h2.subDomains]; exact hs)
      | thrown e => exact h1
      | nan => exact h1
      | ub => exact h1

theorem fragmentLoop_entries {R : ℕ → Prop} (h : Hist Sh) (sdOf : DMap Sh) (maps : ℕ → Option (DMap Sh))
    (hR : ∀ s i, DMap.find key sdOf s = some i → R i) (l : List Sh) :
    ∀ acc acc' : ℕ → Option (List Sh × DMap Sh), (∀ i, acc i ≠ none → R i) →
      Builder.fragmentLoop key h sdOf maps l acc = .val acc' → ∀ i, acc' i ≠ none → R i := by
  induction l with
  | nil =>
    intro acc acc' ha e
    simp only [Builder.fragmentLoop, Outcome.val.injEq] at e
    subst e; exact ha
  | cons s t ih =>
    intro acc acc' ha e
    simp only [Builder.fragmentLoop] at e
    cases hf : DMap.find key sdOf s with
    | none => rw [hf] at e; cases e
    | some i =>
      rw [hf] at e
      simp only at e
      cases hm : maps i with
      | none => rw [hm] at e; cases e
      | some m =>
        rw [hm] at e
        simp only at e
        cases hx : DMap.find key m s with
        | none => rw [hx] at e; cases e
        | some idx =>
          rw [hx] at e
          exact ih _ _ (fun j hj => update_entry ha (hR s i hf) j hj) e

theorem fragment_entries {R : ℕ → Prop} {o : Orders} {eps : ℝ} {b b' : Builder Sh} {only : Bool}
    (hl : ∀ i ∈ o.lists, R i) (h : EntriesIn R b)
    (hv : Builder.fragment key occ o eps only b = (.val (), b')) : EntriesIn R b' := by
  have hsd : ∀ s i, DMap.find key (Builder.bindAll key (b.allEntities o)) s = some i → R i := by
    intro s i hf
    obtain ⟨s1, -⟩ := bindAll_spec key (b.allEntities o) []
    rcases s1 s i hf with hh | ⟨q, hq, -, rfl⟩
    · simp [DMap.find] at hh
    · simp only [Builder.allEntities, List.mem_flatMap, List.mem_map] at hq
      obtain ⟨j, hj, t, -, rfl⟩ := hq
      exact hl j hj
  unfold Builder.fragment at hv
  simp only at hv
  split at hv
  · cases hv
  · cases hv
  · cases hv
  · next hist hg =>
    cases hfl : Builder.fragmentLoop key hist (Builder.bindAll key (b.allEntities o)) b.fragMaps
        ((b.allEntities o).map (·.1)) (fun _ => none) with
    | thrown e => rw [hfl] at hv; cases hv
    | nan => rw [hfl] at hv; cases hv
    | ub => rw [hfl] at hv; cases hv
    | val acc =>
      rw [hfl] at hv
      simp only at hv
      have ha := fragmentLoop_entries key hist _ _ hsd _ _ _ (by simp) hfl
      split at hv
      · simp only [Prod.mk.injEq, true_and] at hv
        subst hv
        refine ⟨fun i hi => ?_, fun i hi => ?_⟩
        · simp only at hi
          cases e : acc i with
          | none => rw [e] at hi; exact h.1 i hi
          | some a => exact ha i (by rw [e]; simp)
        · simp only at hi
          cases e : acc i with
          | none => rw [e] at hi; exact h.2 i hi
          | some a => exact ha i (by rw [e]; simp)
      all_goals simp at hv

theorem built_only {b : Builder Sh} {o : Orders} {n : ContainedNetwork Sh} (ho : ValidOrders o b)
    (hn : (Builder.buildContained key occ big o b).1 = .val n) :
    (∀ i, b.networks i ≠ none → n.entityFragments i ≠ none ∧ n.indexMaps i ≠ none) ∧
    (∀ i, n.entityFragments i ≠ none → b.subDomains i ≠ none ∨ b.networks i ≠ none) ∧
    (∀ i, n.indexMaps i ≠ none → b.subDomains i ≠ none ∨ b.networks i ≠ none) ∧
    b.entityDim = some n.entityDim ∧ b.domainDim = some n.domainDim := by
  unfold Builder.buildContained at hn
  cases hp : Builder.prepare key occ big o false b with
  | mk r b' =>
    rw [hp] at hn
    cases r with
    | thrown e => cases hn
    | nan => cases hn
    | ub => cases hn
    | val u =>
      simp only at hn
      have hdata := prepare_data key occ big o false b
      rw [hp] at hdata
      have key1 : (∀ i, b.networks i ≠ none → b'.fragLists i ≠ none ∧ b'.fragMaps i ≠ none) ∧
          EntriesIn (fun i => b.subDomains i ≠ none ∨ b.networks i ≠ none) b' := by
        have h0 : SameData b (Builder.initializeBuild key b.clearBuild) := ⟨rfl, rfl, rfl, rfl, rfl, rfl⟩
        have hd := h0.trans (getEpsilon_data occ big o _)
        have e : ((Builder.initializeBuild key b.clearBuild).getEpsilon occ big o).fragLists =
            (Builder.initializeBuild key b.clearBuild).fragLists ∧
            ((Builder.initializeBuild key b.clearBuild).getEpsilon occ big o).fragMaps =
            (Builder.initializeBuild key b.clearBuild).fragMaps := by
          unfold Builder.getEpsilon; split <;> exact ⟨rfl, rfl⟩
        have hs : ∀ i, b.networks i ≠ none →
            ((Builder.initializeBuild key b.clearBuild).getEpsilon occ big o).fragLists i ≠ none ∧
            ((Builder.initializeBuild key b.clearBuild).getEpsilon occ big o).fragMaps i ≠ none := by
          intro i hi
          obtain ⟨s, hs⟩ := Option.ne_none_iff_exists'.1 hi
          rw [e.1, e.2]
          simp [Builder.initializeBuild, Builder.clearBuild, hs]
        have he : EntriesIn (fun i => b.subDomains i ≠ none ∨ b.networks i ≠ none)
            ((Builder.initializeBuild key b.clearBuild).getEpsilon occ big o) := by
          refine ⟨fun i hi => ?_, fun i hi => ?_⟩
          · rw [e.1] at hi
            by_contra hc
            push Not at hc
            simp [Builder.initializeBuild, Builder.clearBuild, hc.1, hc.2] at hi
          · rw [e.2] at hi
            by_contra hc
            push Not at hc
            simp [Builder.initializeBuild, Builder.clearBuild, hc.1, hc.2] at hi
        clear e
        unfold Builder.prepare at hp
        simp only at hp
        generalize (Builder.initializeBuild key b.clearBuild).getEpsilon occ big o = b1 at *
        obtain ⟨k1, -⟩ := confine_keeps key occ o (b1.eps.getD 0) o.networks b1
        have k2 := confine_entries key occ o (b1.eps.getD 0) o.networks b1 he
          (fun i hi => Or.inl (by rw [hd.subDomains] at hi; exact hi))
        cases hc : Builder.confine key occ o (b1.eps.getD 0) b1 o.networks with
        | mk r b2 =>
          rw [hc] at hp k1 k2
          cases r with
          | thrown e => cases hp
          | nan => cases hp
          | ub => cases hp
          | val v =>
            obtain ⟨f1, -⟩ := fragment_keys key occ hp
            exact ⟨fun i hi => ⟨f1.1 i (k1.1 i (hs i hi).1), f1.2 i (k1.2 i (hs i hi).2)⟩,
              fragment_entries key occ (fun i hi => (ho.lists.2 i).1 hi) k2 hp⟩
      have hn' : n.entityFragments = b'.fragLists ∧ n.indexMaps = b'.fragMaps ∧
          b'.entityDim = some n.entityDim ∧ b'.domainDim = some n.domainDim := by
        cases he : b'.entityDim with
        | none => rw [he] at hn; simp at hn
        | some e =>
          cases hd : b'.domainDim with
          | none => rw [he, hd] at hn; simp at hn
          | some d =>
            rw [he, hd] at hn
            simp only [Outcome.val.injEq] at hn
            subst hn
            exact ⟨rfl, rfl, rfl, rfl⟩
      rw [hn'.1, hn'.2.1, ← hdata.entityDim, ← hdata.domainDim]
      exact ⟨key1.1, key1.2.1, key1.2.2, hn'.2.2.1, hn'.2.2.2⟩

end

/-! ## C132 Access to a built network -/

variable {Sh K : Type} [DecidableEq Sh] [DecidableEq K] (key : Sh → K) (occ : Occ Sh) (big : ℝ)

/-- A sub-domain has been registered with the id. -/
def RegisteredDomain (ops : List (Op Sh)) (i : ℕ) : Prop := ∃ d s, (i, d, s) ∈ (runReg key occ big ops).2.domains

/-- The full claim: the ids of the sub-domains of a built network are those that have been registered. -/
def C132_full : Prop :=
  ∀ (Sh K : Type) [DecidableEq Sh] [DecidableEq K] (key : Sh → K) (occ : Occ Sh) (big : ℝ) (ops : List (Op Sh))
    (o : Orders) (n : ContainedNetwork Sh) (order : List ℕ), ValidOrders o (runReg key occ big ops).1 →
    (Builder.buildContained key occ big o (runReg key occ big ops).1).1 = .val n →
    Enumerates order n.subDomainFragments →
    ∀ i, i ∈ n.subDomainIds order ↔ RegisteredDomain key occ big ops i

theorem at_isVal {α : Type} (m : ℕ → Option α) (i : ℕ) : (at' m i).isVal ↔ m i ≠ none := by
  unfold at'
  cases m i <;> simp [Outcome.isVal]

theorem at_thrown {α : Type} (m : ℕ → Option α) (i : ℕ) : at' m i = .thrown "out_of_range" ↔ m i = none := by
  unfold at'
  cases m i <;> simp

theorem mem_ids {n : ContainedNetwork Sh} {order : List ℕ} (h : Enumerates order n.subDomainFragments) (i : ℕ) :
    i ∈ n.subDomainIds order ↔ n.subDomainFragments i ≠ none := by
  unfold ContainedNetwork.subDomainIds
  rw [List.mem_filter, h.2 i, Option.isSome_iff_ne_none]
  tauto

theorem registered_iff (ops : List (Op Sh)) (i : ℕ) :
    RegisteredDomain key occ big ops i ↔ (runReg key occ big ops).1.subDomains i ≠ none := by
  have h := (runReg_inv key occ big ops).dom i
  constructor
  · rintro ⟨d, s, hm⟩
    rw [(h s).2 ⟨d, hm⟩]
    simp
  · intro hn
    obtain ⟨s, hs⟩ := Option.ne_none_iff_exists'.1 hn
    obtain ⟨d, hm⟩ := (h s).1 hs
    exact ⟨d, s, hm⟩

/-- Whatever the history: each id is listed once and is that of a registered sub-domain; all data of the listed
sub-domains can be accessed, and the fragments of all others raise an error. -/
theorem C132_listed (ops : List (Op Sh)) (o : Orders) (n : ContainedNetwork Sh) (order : List ℕ)
    (hn : (Builder.buildContained key occ big o (runReg key occ big ops).1).1 = .val n)
    (he : Enumerates order n.subDomainFragments) :
    (n.subDomainIds order).Nodup ∧
    (∀ i ∈ n.subDomainIds order, RegisteredDomain key occ big ops i ∧ (n.fragmentsOf i).isVal ∧
      (n.entityFragmentsOf i).isVal ∧ (n.indexMapOf i).isVal) ∧
    ∀ i, i ∉ n.subDomainIds order → n.fragmentsOf i = .thrown "out_of_range" := by
  obtain ⟨h1, h2, -⟩ := built_entries key occ big hn
  refine ⟨he.1.filter _, fun i hi => ?_, fun i hi => ?_⟩
  · rw [mem_ids he] at hi
    have hr := h2 i hi
    exact ⟨(registered_iff key occ big ops i).2 hr, (at_isVal _ i).2 hi, (at_isVal _ i).2 (h1 i hr).1,
      (at_isVal _ i).2 (h1 i hr).2⟩
  · rw [mem_ids he, not_not] at hi
    exact (at_thrown _ i).2 hi

/-- The ids listed are exactly the registered ones if no shape has been registered for two sub-domains. -/
theorem C132_ids_partial (ops : List (Op Sh)) (o : Orders) (n : ContainedNetwork Sh) (order : List ℕ)
    (ho : ValidOrders o (runReg key occ big ops).1) (hdd : DistinctDomains key (runReg key occ big ops).1)
    (hn : (Builder.buildContained key occ big o (runReg key occ big ops).1).1 = .val n)
    (he : Enumerates order n.subDomainFragments) (i : ℕ) :
    i ∈ n.subDomainIds order ↔ RegisteredDomain key occ big ops i := by
  obtain ⟨-, h2, h3⟩ := built_entries key occ big hn
  rw [mem_ids he, registered_iff]
  exact ⟨h2 i, h3 hdd ho.subDomains i⟩

/-- The fragments of entities and their indices can be accessed for all ids with a registered sub-domain or with
registered entities. -/
theorem C132_entities (ops : List (Op Sh)) (o : Orders) (n : ContainedNetwork Sh)
    (ho : ValidOrders o (runReg key occ big ops).1)
    (hn : (Builder.buildContained key occ big o (runReg key occ big ops).1).1 = .val n) (i : ℕ)
    (hi : RegisteredDomain key occ big ops i ∨ ∃ d s, (i, d, s) ∈ (runReg key occ big ops).2.entities) :
    (n.entityFragmentsOf i).isVal ∧ (n.indexMapOf i).isVal := by
  obtain ⟨h1, -⟩ := built_entries key occ big hn
  obtain ⟨g1, -⟩ := built_only key occ big ho hn
  unfold ContainedNetwork.entityFragmentsOf ContainedNetwork.indexMapOf
  rw [at_isVal, at_isVal]
  rcases hi with hi | ⟨d, s, hm⟩
  · exact h1 i ((registered_iff key occ big ops i).1 hi)
  · refine g1 i fun hnone => ?_
    have := (runReg_inv key occ big ops).netNone i hnone
    have hs : s ∈ shapesOf (runReg key occ big ops).2.entities i := by
      unfold shapesOf
      exact List.mem_map.2 ⟨(i, d, s), List.mem_filter.2 ⟨hm, by simp⟩, rfl⟩
    rw [this] at hs
    cases hs

/-- For an id without sub-domain the access raises an error, unless entities have been added with this id. -/
theorem C132_unknown (ops : List (Op Sh)) (o : Orders) (n : ContainedNetwork Sh)
    (ho : ValidOrders o (runReg key occ big ops).1)
    (hn : (Builder.buildContained key occ big o (runReg key occ big ops).1).1 = .val n) (i : ℕ)
    (hd : ¬ RegisteredDomain key occ big ops i) (he : (runReg key occ big ops).1.networks i = none) :
    n.fragmentsOf i = .thrown "out_of_range" ∧ n.entityFragmentsOf i = .thrown "out_of_range" ∧
      n.indexMapOf i = .thrown "out_of_range" := by
  rw [registered_iff] at hd
  obtain ⟨-, h2, -⟩ := built_entries key occ big hn
  obtain ⟨-, g1, g2, -⟩ := built_only key occ big ho hn
  refine ⟨(at_thrown _ i).2 ?_, (at_thrown _ i).2 ?_, (at_thrown _ i).2 ?_⟩
  · by_contra h; exact hd (h2 i h)
  · by_contra h; rcases g1 i h with h | h <;> contradiction
  · by_contra h; rcases g2 i h with h | h <;> contradiction

/-- The dimensions are those of the registered geometries. -/
theorem C132_dimensions (ops : List (Op Sh)) (o : Orders) (n : ContainedNetwork Sh)
    (ho : ValidOrders o (runReg key occ big ops).1)
    (hn : (Builder.buildContained key occ big o (runReg key occ big ops).1).1 = .val n) :
    (∀ x ∈ (runReg key occ big ops).2.domains, n.domainDimension = x.2.1) ∧
    (∀ x ∈ (runReg key occ big ops).2.entities, n.entityDimension = x.2.1) ∧
    ((runReg key occ big ops).2.domains ≠ [] → (runReg key occ big ops).2.entities ≠ [] →
      n.entityDimension < n.domainDimension) := by
  obtain ⟨-, -, -, he, hd⟩ := built_only key occ big ho hn
  have inv := runReg_inv key occ big ops
  have h1 : ∀ x ∈ (runReg key occ big ops).2.domains, n.domainDimension = x.2.1 := by
    intro x hx
    have := inv.domDim x hx
    rw [hd] at this
    exact Option.some.inj this
  have h2 : ∀ x ∈ (runReg key occ big ops).2.entities, n.entityDimension = x.2.1 := by
    intro x hx
    have hne : ¬ IsEmpty (runReg key occ big ops).1.networks := by
      intro hem
      have := inv.netNone x.1 (hem x.1)
      have hs : x.2.2 ∈ shapesOf (runReg key occ big ops).2.entities x.1 := by
        unfold shapesOf
        exact List.mem_map.2 ⟨x, List.mem_filter.2 ⟨hx, by simp⟩, rfl⟩
      rw [this] at hs
      cases hs
    obtain ⟨e, h, h', -⟩ := inv.entDim hne
    rw [he] at h
    rw [h' x hx]
    exact Option.some.inj h
  refine ⟨h1, h2, fun hd' he' => ?_⟩
  obtain ⟨x, hx⟩ := List.exists_mem_of_ne_nil _ hd'
  obtain ⟨y, hy⟩ := List.exists_mem_of_ne_nil _ he'
  rw [h1 x hx, h2 y hy]
  exact inv.cons.smaller y hy x hx

/-- The network with one sub-domain meets the hypotheses of the theorems above. -/
example : ∃ n, (Builder.buildContained Prod.fst keepOcc 1 (solidAndFaceOrders 5)
      (runReg Prod.fst keepOcc 1 (solidAndFaceOps 5)).1).1 = .val n ∧
    ValidOrders (solidAndFaceOrders 5) (runReg Prod.fst keepOcc 1 (solidAndFaceOps 5)).1 ∧
    Enumerates [1] n.subDomainFragments ∧ n.subDomainIds [1] = [1] ∧ n.entityDimension = 2 ∧
    n.domainDimension = 3 ∧ (n.entityFragmentsOf 5).isVal ∧ n.fragmentsOf 5 = .thrown "out_of_range" := by
  obtain ⟨n, w, hn, he, hd, hi, hf, -⟩ := lost_face
  rw [solidAndFace_run]
  have h5 : n.subDomainFragments 5 = none := by
    by_contra h
    have := (hi.2 5).2 h
    simp at this
  have h1 := (hi.2 1).1 (by simp)
  obtain ⟨l, hl⟩ := Option.ne_none_iff_exists'.1 h1
  exact ⟨n, hn, solidAndFace_orders 5, hi, by simp [ContainedNetwork.subDomainIds, hl], he, hd,
    (at_isVal _ 5).2 (by rw [hf]; simp), (at_thrown _ 5).2 h5⟩

/-! ### One shape for two sub-domains -/

/-- The solid `1` as sub-domain with the ids `1` and `2`, and a face in the first one. -/
def sameSolidOps : List (Op (ℕ × Bool)) :=
  [.setEpsilon 1, .addSubDomain (.val 3) (.val (1, true)) 1, .addSubDomain (.val 3) (.val (1, true)) 2,
    .setConfineToSubDomainUnion false, .addEntity (.val 2) (.val (5, true)) 1]

/-- State after `sameSolidOps`. -/
noncomputable def sameSolid : Builder (ℕ × Bool) :=
  { (Builder.init : Builder (ℕ × Bool)) with
    eps := some 1, epsIsSet := true, domainDim := some 3, entityDim := some 2, confineUnion := false
    subDomains := Function.update (Function.update (fun _ => none) 1 (some (1, true))) 2 (some (1, true))
    bounds := Function.update (Function.update (fun _ => none) 1 (some false)) 2 (some false)
    networks := Function.update (fun _ => none) 1 (some [(5, true)]) }

theorem sameSolid_run : runReg Prod.fst keepOcc 1 sameSolidOps =
    (sameSolid, ⟨[(1, 3, (1, true)), (2, 3, (1, true))], [(1, 2, (5, true))]⟩) := by
  have n0 : ¬ Builder.IsEmpty (Function.update (fun _ => none) 1 (some (1, true)) : ℕ → Option (ℕ × Bool)) :=
    fun h => by have := h 1; simp at this
  have n1 : ¬ Builder.IsEmpty (Function.update (Function.update (fun _ => none) 1 (some (1, true))) 2
    (some (1, true)) : ℕ → Option (ℕ × Bool)) := fun h => by have := h 2; simp at this
  have em1 : Builder.IsEmpty (fun _ => none : ℕ → Option (ℕ × Bool)) := fun _ => rfl
  have em2 : Builder.IsEmpty (fun _ => none : ℕ → Option (List (ℕ × Bool))) := fun _ => rfl
  simp [runReg, sameSolidOps, Builder.step, Builder.setEpsilon, Builder.setConfineToSubDomainUnion,
    Builder.addSubDomain, Builder.addSubDomainEntity, Builder.init, em1, em2, n0, n1, sameSolid, record]

/-- The orders of traversal. -/
def sameSolidOrders : Orders := ⟨[1, 2], [1], [1, 2], [1, 2]⟩

theorem sameSolid_orders : ValidOrders sameSolidOrders sameSolid := by
  have h : ∀ j, j ∈ [1, 2] ↔ sameSolid.subDomains j ≠ none := by
    intro j
    by_cases h2 : j = 2
    · simp [sameSolid, h2]
    · by_cases h1 : j = 1 <;> simp [sameSolid, h1, h2]
  have hn : ∀ j, j ∈ [1] ↔ sameSolid.networks j ≠ none := by
    intro j
    by_cases h1 : j = 1 <;> simp [sameSolid, h1]
  have hb : ∀ j, j ∈ [1, 2] ↔ sameSolid.subDomains j ≠ none ∨ sameSolid.networks j ≠ none := by
    intro j
    rw [← h, ← hn]
    simp only [List.mem_cons, List.not_mem_nil, or_false]
    tauto
  exact ⟨⟨by simp [sameSolidOrders], h⟩, ⟨by simp [sameSolidOrders], hn⟩, ⟨by simp [sameSolidOrders], hb⟩,
    ⟨by simp [sameSolidOrders], hb⟩⟩

/-- The first sub-domain is missing in the network. -/
theorem C132_lost_domain : ∃ n, (Builder.buildContained Prod.fst keepOcc 1 sameSolidOrders sameSolid).1 = .val n ∧
    n.subDomainFragments = Function.update (fun _ => none) (2 : ℕ) (some [((1 : ℕ), true), (1, true)]) := by
  have e : ∀ m : ℕ → Option (List (ℕ × Bool)), Function.update (Function.update m 2 (some [(1, true)])) 2
      (some [(1, true), (1, true)]) = Function.update m 2 (some [(1, true), (1, true)]) := by
    intro m
    simp
  exact ⟨_, rfl, e _⟩

theorem C132_disproof : ¬ C132_full := by
  intro H
  obtain ⟨n, hn, hf⟩ := C132_lost_domain
  have he : Enumerates [2] n.subDomainFragments := by
    refine ⟨by simp, fun i => ?_⟩
    rw [hf]
    by_cases h : i = 2 <;> simp [h]
  have := (H (ℕ × Bool) ℕ Prod.fst keepOcc 1 sameSolidOps sameSolidOrders n [2]
    (by rw [sameSolid_run]; exact sameSolid_orders) (by rw [sameSolid_run]; exact hn) he 1).2
    ⟨3, (1, true), by rw [sameSolid_run]; simp⟩
  rw [mem_ids he, hf] at this
  simp at this

/-! ## C133 Lifetime of networks -/

section
variable {N : Type} (build : Orders → Builder Sh → Outcome N × Builder Sh)

/-- One of the builds of the list of calls succeeds. -/
def BuildsAgain (w : Owner Sh N) (calls : List (OwnerCall Sh)) : Prop :=
  ∃ mid o rest m, calls = mid ++ .build o :: rest ∧
    (build o (Owner.run key occ big build w mid).b).1 = .val m

theorem owner_append (w : Owner Sh N) (a b : List (OwnerCall Sh)) :
    Owner.run key occ big build w (a ++ b) = Owner.run key occ big build (Owner.run key occ big build w a) b := by
  unfold Owner.run
  rw [List.foldl_append]

theorem step_build_val {w : Owner Sh N} {o : Orders} {n : N} {b' : Builder Sh} (h : build o w.b = (.val n, b')) :
    Owner.step key occ big build w (.build o) = ⟨b', w.made ++ [n], some w.made.length⟩ := by
  unfold Owner.step
  simp only [h]

theorem step_build_fail {w : Owner Sh N} {o : Orders} {r : Outcome N} {b' : Builder Sh} (h : build o w.b = (r, b'))
    (hr : ¬ ∃ m, r = .val m) : Owner.step key occ big build w (.build o) = { w with b := b' } := by
  unfold Owner.step
  simp only [h]
  cases r with
  | val n => exact absurd ⟨n, rfl⟩ hr
  | thrown e => rfl
  | nan => rfl
  | ub => rfl

theorem step_made (w : Owner Sh N) (c : OwnerCall Sh) :
    ∃ l, (Owner.step key occ big build w c).made = w.made ++ l := by
  unfold Owner.step
  split
  · split
    · exact ⟨_, rfl⟩
    · exact ⟨[], by simp⟩
  · exact ⟨[], by simp⟩

theorem run_made (w : Owner Sh N) (calls : List (OwnerCall Sh)) :
    ∃ l, (Owner.run key occ big build w calls).made = w.made ++ l := by
  induction calls generalizing w with
  | nil => exact ⟨[], by simp [Owner.run]⟩
  | cons c t ih =>
    obtain ⟨l, hl⟩ := step_made key occ big build w c
    obtain ⟨l', hl'⟩ := ih (Owner.step key occ big build w c)
    refine ⟨l ++ l', ?_⟩
    rw [← List.append_assoc, ← hl]
    exact hl'

theorem run_live (w : Owner Sh N) (calls : List (OwnerCall Sh)) (k : ℕ) (hk : w.live = some k)
    (hlt : k < w.made.length) :
    (¬ BuildsAgain key occ big build w calls → (Owner.run key occ big build w calls).live = some k) ∧
    (BuildsAgain key occ big build w calls → ∃ j, (Owner.run key occ big build w calls).live = some j ∧ k < j) := by
  induction calls using List.reverseRecOn with
  | nil =>
    refine ⟨fun _ => hk, ?_⟩
    rintro ⟨mid, o, rest, m, e, -⟩
    simp at e
  | append_singleton t c ih =>
    have hr : Owner.run key occ big build w (t ++ [c]) =
        Owner.step key occ big build (Owner.run key occ big build w t) c := by
      rw [owner_append]; rfl
    have hmade := run_made key occ big build w t
    have hmono : BuildsAgain key occ big build w t → BuildsAgain key occ big build w (t ++ [c]) := by
      rintro ⟨mid, o, rest, m, e, hm⟩
      exact ⟨mid, o, rest ++ [c], m, by simp [e], hm⟩
    rw [hr]
    cases c with
    | other op =>
      have hback : BuildsAgain key occ big build w (t ++ [.other op]) → BuildsAgain key occ big build w t := by
        rintro ⟨mid, o, rest, m, e, hm⟩
        rcases List.eq_nil_or_concat rest with rfl | ⟨r, x, rfl⟩
        · have := List.append_inj_right' e rfl
          simp at this
        · rw [List.concat_eq_append, ← List.cons_append, ← List.append_assoc] at e
          exact ⟨mid, o, r, m, List.append_inj_left' e rfl, hm⟩
      exact ⟨fun h => ih.1 fun h' => h (hmono h'), fun h => ih.2 (hback h)⟩
    | build o =>
      cases hb : build o (Owner.run key occ big build w t).b with
      | mk r b' =>
        have hfail : (¬ ∃ m, r = .val m) →
            (BuildsAgain key occ big build w (t ++ [.build o]) → BuildsAgain key occ big build w t) := by
          rintro hno ⟨mid, o', rest, m, e, hm⟩
          rcases List.eq_nil_or_concat rest with rfl | ⟨r', x, rfl⟩
          · have h1 := List.append_inj_right' e rfl
            have h2 := List.append_inj_left' e rfl
            simp only [List.cons.injEq, OwnerCall.build.injEq, and_true] at h1
            subst h1 h2
            rw [hb] at hm
            exact absurd ⟨m, hm⟩ hno
          · rw [List.concat_eq_append, ← List.cons_append, ← List.append_assoc] at e
            exact ⟨mid, o', r', m, List.append_inj_left' e rfl, hm⟩
        by_cases hv : ∃ m, r = .val m
        · obtain ⟨n, rfl⟩ := hv
          rw [step_build_val key occ big build hb]
          have hyes : BuildsAgain key occ big build w (t ++ [.build o]) := ⟨t, o, [], n, rfl, by rw [hb]⟩
          refine ⟨fun h => absurd hyes h, fun _ => ⟨_, rfl, ?_⟩⟩
          obtain ⟨l, hl⟩ := hmade
          rw [hl, List.length_append]
          omega
        · rw [step_build_fail key occ big build hb hv]
          exact ⟨fun h => ih.1 fun h' => h (hmono h'), fun h => ih.2 (hfail hv h)⟩

/-- State after some calls, a build and further calls; the network returned by the build is the one at this
position. -/
noncomputable def afterBuild (before : List (OwnerCall Sh)) (o : Orders) (after : List (OwnerCall Sh)) : Owner Sh N :=
  Owner.run key occ big build Owner.init (before ++ .build o :: after)

/-- Position of the network made by a successful build. -/
noncomputable def handle (before : List (OwnerCall Sh)) : ℕ :=
  (Owner.run key occ big build Owner.init before).made.length

/-- The network returned by `build()` remains as it is, whatever is done with the builder. -/
def C133_full : Prop :=
  ∀ (Sh K : Type) [DecidableEq Sh] [DecidableEq K] (key : Sh → K) (occ : Occ Sh) (big : ℝ)
    (before : List (OwnerCall Sh)) (o : Orders) (after : List (OwnerCall Sh)) (n : ContainedNetwork Sh),
    (Builder.buildContained key occ big o
      (Owner.run key occ big (Builder.buildContained key occ big) Owner.init before).b).1 = .val n →
    (afterBuild key occ big (Builder.buildContained key occ big) before o after).read
      (handle key occ big (Builder.buildContained key occ big) before) = .val n

theorem after_build {before : List (OwnerCall Sh)} {o : Orders} {n : N}
    (hn : (build o (Owner.run key occ big build Owner.init before).b).1 = .val n) (after : List (OwnerCall Sh)) :
    ∃ w : Owner Sh N, w.made = (Owner.run key occ big build Owner.init before).made ++ [n] ∧
      w.live = some (handle key occ big build before) ∧
      w.b = (build o (Owner.run key occ big build Owner.init before).b).2 ∧
      w = Owner.run key occ big build Owner.init (before ++ [.build o]) ∧
      afterBuild key occ big build before o after = Owner.run key occ big build w after := by
  refine ⟨Owner.run key occ big build Owner.init (before ++ [.build o]), ?_, ?_, ?_, rfl, ?_⟩
  case _ =>
    rw [owner_append]
    show (Owner.step key occ big build (Owner.run key occ big build Owner.init before) (.build o)).made = _
    cases hb : build o (Owner.run key occ big build Owner.init before).b with
    | mk r b' =>
      rw [hb] at hn; simp only at hn; subst hn
      rw [step_build_val key occ big build hb]
      try rfl
  case _ =>
    rw [owner_append]
    show (Owner.step key occ big build (Owner.run key occ big build Owner.init before) (.build o)).live = _
    cases hb : build o (Owner.run key occ big build Owner.init before).b with
    | mk r b' =>
      rw [hb] at hn; simp only at hn; subst hn
      rw [step_build_val key occ big build hb]
      try rfl
  case _ =>
    rw [owner_append]
    show (Owner.step key occ big build (Owner.run key occ big build Owner.init before) (.build o)).b = _
    cases hb : build o (Owner.run key occ big build Owner.init before).b with
    | mk r b' =>
      rw [hb] at hn; simp only at hn; subst hn
      rw [step_build_val key occ big build hb]
      try rfl
  case _ =>
    unfold afterBuild
    rw [← owner_append]
    simp

/-- In C++, the reference returned by a successful `build()` can be used, and refers to the network that was built,
exactly as long as no other build has succeeded: adding geometries, changing settings, `clear()` and builds that fail
do no harm. -/
theorem C133_reference_partial (before : List (OwnerCall Sh)) (o : Orders) (after : List (OwnerCall Sh)) (n : N)
    (hn : (build o (Owner.run key occ big build Owner.init before).b).1 = .val n) :
    (¬ BuildsAgain key occ big build (Owner.run key occ big build Owner.init (before ++ [.build o])) after →
      (afterBuild key occ big build before o after).read (handle key occ big build before) = .val n) ∧
    (BuildsAgain key occ big build (Owner.run key occ big build Owner.init (before ++ [.build o])) after →
      (afterBuild key occ big build before o after).read (handle key occ big build before) = .ub) := by
  obtain ⟨w, hm, hl, -, hw, hr⟩ := after_build key occ big build hn after
  rw [hr, ← hw]
  have hlt : handle key occ big build before < w.made.length := by
    rw [hm]
    simp [handle]
  have hget : w.made[handle key occ big build before]? = some n := by
    rw [hm]
    simp [handle]
  obtain ⟨h1, h2⟩ := run_live key occ big build w after _ hl hlt
  constructor
  · intro h
    unfold Owner.read
    rw [if_pos (h1 h)]
    obtain ⟨l, hl'⟩ := run_made key occ big build w after
    rw [hl', List.getElem?_append_left hlt, hget]
  · intro h
    obtain ⟨j, hj, hlt'⟩ := h2 h
    unfold Owner.read
    rw [if_neg]
    rw [hj]
    intro e
    have := Option.some.inj e
    omega

/-- In Python, the object returned by `build()` is a copy, which keeps the network whatever is done with the
builder. -/
theorem C133_python (before : List (OwnerCall Sh)) (o : Orders) (after : List (OwnerCall Sh)) (n : N)
    (hn : (build o (Owner.run key occ big build Owner.init before).b).1 = .val n) :
    (afterBuild key occ big build before o after).readCopy (handle key occ big build before) = .val n := by
  obtain ⟨w, hm, hl, -, hw, hr⟩ := after_build key occ big build hn after
  have hlt : handle key occ big build before < w.made.length := by
    rw [hm]
    simp [handle]
  have hget : w.made[handle key occ big build before]? = some n := by
    rw [hm]
    simp [handle]
  rw [hr]
  unfold Owner.readCopy
  obtain ⟨l, hl'⟩ := run_made key occ big build w after
  rw [hl', List.getElem?_append_left hlt, hget]

end

theorem buildNetwork_built (o : Orders) (b : Builder Sh) (n : Builder.Network Sh)
    (hn : (Builder.buildNetwork key occ big o b).1 = .val n) :
    (Builder.buildNetwork key occ big o b).2.built = true := by
  unfold Builder.buildNetwork at hn ⊢
  cases hp : Builder.prepare key occ big o true b with
  | mk r b' =>
    rw [hp] at hn
    cases r with
    | val u =>
      cases he : b'.entityDim with
      | none => simp [he] at hn
      | some e => simp [he]
    | thrown e => cases hn
    | nan => cases hn
    | ub => cases hn

/-- Right after a successful build, `network()` returns the same reference as `build()`, for both kinds of
builders. -/
theorem C133_network (before : List (OwnerCall Sh)) (o : Orders) :
    (∀ n, (Builder.buildContained key occ big o
        (Owner.run key occ big (Builder.buildContained key occ big) Owner.init before).b).1 = .val n →
      (afterBuild key occ big (Builder.buildContained key occ big) before o []).network =
        .val (handle key occ big (Builder.buildContained key occ big) before)) ∧
    (∀ n, (Builder.buildNetwork key occ big o
        (Owner.run key occ big (Builder.buildNetwork key occ big) Owner.init before).b).1 = .val n →
      (afterBuild key occ big (Builder.buildNetwork key occ big) before o []).network =
        .val (handle key occ big (Builder.buildNetwork key occ big) before)) := by
  constructor
  · intro n hn
    obtain ⟨w, -, hl, hb, -, hr⟩ := after_build key occ big _ hn []
    have hbuilt := (buildContained_built key occ big o _).2 (by rw [hn]; trivial)
    rw [← hb] at hbuilt
    rw [hr]
    unfold Owner.network
    show (if w.b.built = false then _ else _) = _
    rw [if_neg (by simp [hbuilt])]
    show (match w.live with | some k => Outcome.val k | none => .ub) = _
    rw [hl]
  · intro n hn
    obtain ⟨w, -, hl, hb, -, hr⟩ := after_build key occ big _ hn []
    have hbuilt := buildNetwork_built key occ big o _ n hn
    rw [← hb] at hbuilt
    rw [hr]
    unfold Owner.network
    show (if w.b.built = false then _ else _) = _
    rw [if_neg (by simp [hbuilt])]
    show (match w.live with | some k => Outcome.val k | none => .ub) = _
    rw [hl]

/-- The calls that register the solid and the face. -/
def registerCalls : List (OwnerCall (ℕ × Bool)) := (solidAndFaceOps 1).map .other

theorem register_run : Owner.run Prod.fst keepOcc 1 (Builder.buildContained Prod.fst keepOcc 1) Owner.init
    registerCalls = ⟨solidAndFace 1, [], none⟩ := by
  have h : ∀ (ops : List (Op (ℕ × Bool))) (w : Owner (ℕ × Bool) (ContainedNetwork (ℕ × Bool))) (r : Reg (ℕ × Bool)),
      Owner.run Prod.fst keepOcc 1 (Builder.buildContained Prod.fst keepOcc 1) w (ops.map .other) =
        { w with b := (ops.foldl (fun x op => ((Builder.step Prod.fst keepOcc 1 x.1 op).2,
          record x.2 op (Builder.step Prod.fst keepOcc 1 x.1 op).1)) (w.b, r)).1 } := by
    intro ops
    induction ops with
    | nil => intro w r; rfl
    | cons a t ih => intro w r; exact ih _ _
  have := h (solidAndFaceOps 1) Owner.init ⟨[], []⟩
  rw [registerCalls, this]
  have e := congrArg Prod.fst (solidAndFace_run 1)
  unfold runReg at e
  exact congrArg (fun b => (⟨b, [], none⟩ : Owner (ℕ × Bool) (ContainedNetwork (ℕ × Bool)))) e

/-- Building a second time destroys the network returned by the first build. -/
theorem C133_disproof : ¬ C133_full := by
  intro H
  have hb : ∃ n, (Builder.buildContained Prod.fst keepOcc 1 (solidAndFaceOrders 1) (solidAndFace 1)).1 = .val n :=
    ⟨_, rfl⟩
  obtain ⟨n, hn⟩ := hb
  have hn' : (Builder.buildContained Prod.fst keepOcc 1 (solidAndFaceOrders 1)
      (Owner.run Prod.fst keepOcc 1 (Builder.buildContained Prod.fst keepOcc 1) Owner.init registerCalls).b).1 =
      .val n := by
    rw [register_run]; exact hn
  have h := H (ℕ × Bool) ℕ Prod.fst keepOcc 1 registerCalls (solidAndFaceOrders 1) [.build (solidAndFaceOrders 1)] n
    hn'
  have h2 := (C133_reference_partial Prod.fst keepOcc 1 (Builder.buildContained Prod.fst keepOcc 1) registerCalls
    (solidAndFaceOrders 1) [.build (solidAndFaceOrders 1)] n hn').2
  rw [h] at h2
  have hb2 : ∃ m, (Builder.buildContained Prod.fst keepOcc 1 (solidAndFaceOrders 1)
      (Builder.buildContained Prod.fst keepOcc 1 (solidAndFaceOrders 1) (solidAndFace 1)).2).1 = .val m := ⟨_, rfl⟩
  obtain ⟨m, hm⟩ := hb2
  have : BuildsAgain Prod.fst keepOcc 1 (Builder.buildContained Prod.fst keepOcc 1)
      (Owner.run Prod.fst keepOcc 1 (Builder.buildContained Prod.fst keepOcc 1) Owner.init
        (registerCalls ++ [.build (solidAndFaceOrders 1)])) [.build (solidAndFaceOrders 1)] := by
    refine ⟨[], solidAndFaceOrders 1, [], m, rfl, ?_⟩
    obtain ⟨w, -, -, hw, hw', -⟩ := after_build Prod.fst keepOcc 1 (Builder.buildContained Prod.fst keepOcc 1) hn' []
    rw [← hw']
    show (Builder.buildContained Prod.fst keepOcc 1 (solidAndFaceOrders 1) w.b).1 = _
    rw [hw, register_run]
    exact hm
  simpa using h2 this

/-- A reference survives `clear()`. -/
example : ∃ n, (afterBuild Prod.fst keepOcc 1 (Builder.buildContained Prod.fst keepOcc 1) registerCalls
      (solidAndFaceOrders 1) [.other .clear]).read
      (handle Prod.fst keepOcc 1 (Builder.buildContained Prod.fst keepOcc 1) registerCalls) = .val n := by
  have hb : ∃ n, (Builder.buildContained Prod.fst keepOcc 1 (solidAndFaceOrders 1) (solidAndFace 1)).1 = .val n :=
    ⟨_, rfl⟩
  obtain ⟨n, hn⟩ := hb
  refine ⟨n, (C133_reference_partial Prod.fst keepOcc 1 (Builder.buildContained Prod.fst keepOcc 1) registerCalls
    (solidAndFaceOrders 1) [.other .clear] n (by rw [register_run]; exact hn)).1 ?_⟩
  rintro ⟨mid, o, rest, m, e, -⟩
  have : (OwnerCall.build o : OwnerCall (ℕ × Bool)) ∈ [OwnerCall.other Op.clear] := by rw [e]; simp
  simp at this

end Props
