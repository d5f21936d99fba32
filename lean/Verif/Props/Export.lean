import Verif.Props.BuildLifecycle
import Verif.Props.Intersections

/-!
# C111: export of built networks
-/

namespace Props
open Verif Frackit Spec.Builder Spec.BRep
open Frackit.Builder (IsEmpty Op ContainedNetwork)

section
variable {Sh K : Type} [DecidableEq Sh] [DecidableEq K] (key : Sh → K) (occ : Occ Sh) (big : ℝ)

/-- No entry for a network is lost. -/
def KeepsEntries (b b' : Builder Sh) : Prop :=
  (∀ i, b.fragLists i ≠ none → b'.fragLists i ≠ none) ∧ ∀ i, b.fragMaps i ≠ none → b'.fragMaps i ≠ none

theorem update_some {α : Type} (m : ℕ → Option α) (i : ℕ) (x : α) (j : ℕ) (h : m j ≠ none) :
    Function.update m i (some x) j ≠ none := by
  by_cases e : j = i
  · subst e; simp
  · rwa [Function.update_of_ne e]

theorem confineOne_keeps (o : Orders) (eps : ℝ) (b : Builder Sh) (i : ℕ) :
    KeepsEntries b (Builder.confineOne key occ o eps b i).2 ∧
      (Builder.confineOne key occ o eps b i).2.sdFragments = b.sdFragments := by
  unfold Builder.confineOne
  simp only
  repeat' split
  all_goals first
    | exact ⟨⟨fun _ h => h, fun _ h => h⟩, rfl⟩
    | exact ⟨⟨fun j h => update_some _ _ _ j h, fun j h => update_some _ _ _ j h⟩, rfl⟩

theorem confine_keeps (o : Orders) (eps : ℝ) (ids : List ℕ) : ∀ b : Builder Sh,
    KeepsEntries b (Builder.confine key occ o eps b ids).2 ∧
      (Builder.confine key occ o eps b ids).2.sdFragments = b.sdFragments := by
  induction ids with
  | nil => intro b; exact ⟨⟨fun _ h => h, fun _ h => h⟩, rfl⟩
  | cons i t ih =>
    intro b
    have h := confineOne_keeps key occ o eps b i
    simp only [Builder.confine]
    cases hc : Builder.confineOne key occ o eps b i with
    | mk r b' =>
      rw [hc] at h
      cases r with
      | val u =>
        obtain ⟨h1, h2⟩ := ih b'
        exact ⟨⟨fun j hj => h1.1 j (h.1.1 j hj), fun j hj => h1.2 j (h.1.2 j hj)⟩, h2.trans h.2⟩
      | thrown e => exact h
      | nan => exact h
      | ub => exact h

theorem domainLoop_keys (h : Hist Sh) (sdOf : DMap Sh) (l : List Sh) : ∀ acc acc',
    Builder.domainLoop key h sdOf l acc = .val acc' → ∀ i,
      acc' i ≠ none ↔ acc i ≠ none ∨ ∃ g ∈ l, DMap.find key sdOf g = some i := by
  induction l with
  | nil =>
    intro acc acc' e i
    simp only [Builder.domainLoop, Outcome.val.injEq] at e
    subst e; simp
  | cons g l ih =>
    intro acc acc' e i
    simp only [Builder.domainLoop] at e
    cases hf : DMap.find key sdOf g with
    | none => rw [hf] at e; cases e
    | some j =>
      rw [hf] at e
      rw [ih _ _ e i]
      by_cases hij : i = j
      · subst hij
        simp [hf]
      · rw [Function.update_of_ne hij]
        simp only [List.mem_cons, exists_eq_or_imp, hf, Option.some.injEq]
        have : ¬ j = i := fun h => hij h.symm
        simp [this]

theorem fragment_keys {o : Orders} {eps : ℝ} {b b' : Builder Sh}
    (h : Builder.fragment key occ o eps false b = (.val (), b')) :
    KeepsEntries b b' ∧ ∀ i, b'.sdFragments i ≠ none ↔ b.sdFragments i ≠ none ∨
      ∃ j ∈ o.subDomains, ∃ s, b.subDomains j = some s ∧ DMap.find key (Builder.bindAll key
        (o.subDomains.filterMap (fun i => (b.subDomains i).map (fun s => (s, i))))) s = some i := by
  unfold Builder.fragment at h
  simp only [Bool.false_eq_true, if_false] at h
  cases hg : occ.general ((b.allEntities o).map (·.1) ++
      (o.subDomains.filterMap (fun i => (b.subDomains i).map (fun s => (s, i)))).map (·.1)) eps with
  | thrown e => rw [hg] at h; cases h
  | nan => rw [hg] at h; cases h
  | ub => rw [hg] at h; cases h
  | val hist =>
    rw [hg] at h
    simp only at h
    cases hl : Builder.fragmentLoop key hist (Builder.bindAll key (b.allEntities o)) b.fragMaps
        ((b.allEntities o).map (·.1)) (fun _ => none) with
    | thrown e => rw [hl] at h; cases h
    | nan => rw [hl] at h; cases h
    | ub => rw [hl] at h; cases h
    | val acc =>
      rw [hl] at h
      simp only at h
      cases hd : Builder.domainLoop key hist (Builder.bindAll key
          (o.subDomains.filterMap (fun i => (b.subDomains i).map (fun s => (s, i)))))
          ((o.subDomains.filterMap (fun i => (b.subDomains i).map (fun s => (s, i)))).map (·.1))
          b.sdFragments with
      | thrown e => rw [hd] at h; cases h
      | nan => rw [hd] at h; cases h
      | ub => rw [hd] at h; cases h
      | val sd =>
        rw [hd] at h
        simp only [Prod.mk.injEq, true_and] at h
        subst h
        refine ⟨⟨fun i hi => ?_, fun i hi => ?_⟩, fun i => ?_⟩
        · simp only; split
          · simp
          · exact hi
        · simp only; split
          · simp
          · exact hi
        · rw [domainLoop_keys key hist _ _ _ _ hd i]
          simp only [List.mem_map, List.mem_filterMap, Option.map_eq_some_iff]
          constructor
          · rintro (h | ⟨g, ⟨p, ⟨j, hj, s, hs, rfl⟩, rfl⟩, hf⟩)
            · exact Or.inl h
            · exact Or.inr ⟨j, hj, s, hs, hf⟩
          · rintro (h | ⟨j, hj, s, hs, hf⟩)
            · exact Or.inl h
            · exact Or.inr ⟨s, ⟨(s, j), ⟨j, hj, s, hs, rfl⟩, rfl⟩, hf⟩

/-- Entries of a network that has been built: each sub-domain with fragments is a registered one, and there
are entries for the network of each sub-domain. -/
theorem built_entries {b : Builder Sh} {o : Orders} {n : ContainedNetwork Sh}
    (hn : (Builder.buildContained key occ big o b).1 = .val n) :
    (∀ i, b.subDomains i ≠ none → n.entityFragments i ≠ none ∧ n.indexMaps i ≠ none) ∧
    (∀ i, n.subDomainFragments i ≠ none → b.subDomains i ≠ none) ∧
    (DistinctDomains key b → Enumerates o.subDomains b.subDomains → ∀ i, b.subDomains i ≠ none →
      n.subDomainFragments i ≠ none) := by
  unfold Builder.buildContained at hn
  cases hp : Builder.prepare key occ big o false b with
  | mk r b' =>
    rw [hp] at hn
    cases r with
    | thrown e => cases hn
    | nan => cases hn
    | ub => cases hn
    | val u =>
      simp only at hn
      have key1 : (∀ i, b.subDomains i ≠ none → b'.fragLists i ≠ none ∧ b'.fragMaps i ≠ none) ∧
          ∀ i, b'.sdFragments i ≠ none ↔ ∃ j ∈ o.subDomains, ∃ s, b.subDomains j = some s ∧
            DMap.find key (Builder.bindAll key
              (o.subDomains.filterMap (fun i => (b.subDomains i).map (fun s => (s, i))))) s = some i := by
        have h0 : SameData b (Builder.initializeBuild key b.clearBuild) := ⟨rfl, rfl, rfl, rfl, rfl, rfl⟩
        have hd := h0.trans (getEpsilon_data occ big o _)
        have e : ((Builder.initializeBuild key b.clearBuild).getEpsilon occ big o).fragLists =
            (Builder.initializeBuild key b.clearBuild).fragLists ∧
            ((Builder.initializeBuild key b.clearBuild).getEpsilon occ big o).fragMaps =
            (Builder.initializeBuild key b.clearBuild).fragMaps ∧
            ((Builder.initializeBuild key b.clearBuild).getEpsilon occ big o).sdFragments = fun _ => none := by
          unfold Builder.getEpsilon; split <;> exact ⟨rfl, rfl, rfl⟩
        have hs : ∀ i, b.subDomains i ≠ none →
            ((Builder.initializeBuild key b.clearBuild).getEpsilon occ big o).fragLists i ≠ none ∧
            ((Builder.initializeBuild key b.clearBuild).getEpsilon occ big o).fragMaps i ≠ none := by
          intro i hi
          obtain ⟨s, hs⟩ := Option.ne_none_iff_exists'.1 hi
          rw [e.1, e.2.1]
          cases hni : b.networks i <;> simp [Builder.initializeBuild, Builder.clearBuild, hs, hni]
        have e3 := e.2.2
        clear e
        unfold Builder.prepare at hp
        simp only at hp
        generalize (Builder.initializeBuild key b.clearBuild).getEpsilon occ big o = b1 at *
        obtain ⟨k1, k2⟩ := confine_keeps key occ o (b1.eps.getD 0) o.networks b1
        have hd2 := hd.trans (confine_data key occ o (b1.eps.getD 0) o.networks b1)
        cases hc : Builder.confine key occ o (b1.eps.getD 0) b1 o.networks with
        | mk r b2 =>
          rw [hc] at hp k1 k2 hd2
          cases r with
          | thrown e => cases hp
          | nan => cases hp
          | ub => cases hp
          | val v =>
            obtain ⟨f1, f2⟩ := fragment_keys key occ hp
            refine ⟨fun i hi => ⟨f1.1 i (k1.1 i (hs i hi).1), f1.2 i (k1.2 i (hs i hi).2)⟩, fun i => ?_⟩
            rw [f2 i, k2, e3, hd2.subDomains]
            simp
      obtain ⟨a1, a2⟩ := key1
      have hn' : n.entityFragments = b'.fragLists ∧ n.indexMaps = b'.fragMaps ∧
          n.subDomainFragments = b'.sdFragments := by
        cases he : b'.entityDim with
        | none => rw [he] at hn; simp at hn
        | some e =>
          cases hd : b'.domainDim with
          | none => rw [he, hd] at hn; simp at hn
          | some d =>
            rw [he, hd] at hn
            simp only [Outcome.val.injEq] at hn
            subst hn
            exact ⟨rfl, rfl, rfl⟩
      rw [hn'.1, hn'.2.1, hn'.2.2]
      obtain ⟨s1, s2⟩ := bindAll_spec key
        (o.subDomains.filterMap (fun i => (b.subDomains i).map (fun s => (s, i)))) []
      refine ⟨a1, fun i hi => ?_, fun hdd hen i hi => ?_⟩
      · obtain ⟨j, hj, s, hs, hf⟩ := (a2 i).1 hi
        rcases s1 s i hf with hh | ⟨q, hq, hk, rfl⟩
        · simp [DMap.find] at hh
        · simp only [List.mem_filterMap, Option.map_eq_some_iff] at hq
          obtain ⟨k, -, t, ht, rfl⟩ := hq
          simp [ht]
      · obtain ⟨s, hs⟩ := Option.ne_none_iff_exists'.1 hi
        have hmem : (s, i) ∈ o.subDomains.filterMap (fun i => (b.subDomains i).map (fun s => (s, i))) := by
          simp only [List.mem_filterMap, Option.map_eq_some_iff]
          exact ⟨i, (hen.2 i).2 hi, s, hs, rfl⟩
        obtain ⟨k, hk⟩ := Option.isSome_iff_exists.1 (s2 s (Or.inr ⟨(s, i), hmem, rfl⟩))
        refine (a2 i).2 ⟨i, (hen.2 i).2 hi, s, hs, ?_⟩
        rcases s1 s k hk with hh | ⟨q, hq, hkq, rfl⟩
        · simp [DMap.find] at hh
        · simp only [List.mem_filterMap, Option.map_eq_some_iff] at hq
          obtain ⟨k, -, t, ht, rfl⟩ := hq
          have := hdd k i t s ht hs hkq
          subst this
          exact hk

theorem lookupAll_succeeds {α : Type} (m : ℕ → Option α) (ids : List ℕ) (h : ∀ i ∈ ids, m i ≠ none) :
    ∃ l, BRepWriter.lookupAll m ids = .val l := by
  induction ids with
  | nil => exact ⟨[], rfl⟩
  | cons i t ih =>
    obtain ⟨l, hl⟩ := ih fun j hj => h j (by simp [hj])
    obtain ⟨a, ha⟩ := Option.ne_none_iff_exists'.1 (h i (by simp))
    exact ⟨(i, a) :: l, by simp only [BRepWriter.lookupAll, ha, hl]; rfl⟩

end

/-! ## C111 Built networks can be exported -/

variable {Sh K : Type} [DecidableEq Sh] [DecidableEq K] (key : Sh → K) (occ : Occ Sh) (big : ℝ) (T : Topo Sh)

/-- All faces of the shape are in the exported compound. -/
def FacesExported (w : BRepWriter Sh) (f : Sh) : Prop := ∀ x ∈ T.faces f, ∃ y ∈ w.compound, key y = key x

/-- All solids of the shape are in the exported compound. -/
def SolidsExported (w : BRepWriter Sh) (f : Sh) : Prop := ∀ x ∈ T.solids f, ∃ y ∈ w.compound, key y = key x

/-- The full claim: every network of faces in volumes that has been built can be exported, and the exported
compound contains the faces of all entity fragments and the solids of all fragments of sub-domains. -/
def C111_full : Prop :=
  ∀ (Sh K : Type) [DecidableEq Sh] [DecidableEq K] (key : Sh → K) (occ : Occ Sh) (big : ℝ) (T : Topo Sh),
    Laws key T → ∀ (ops : List (Op Sh)) (o : Orders) (n : ContainedNetwork Sh) (ids : List ℕ),
    ValidOrders o (runReg key occ big ops).1 →
    (Builder.buildContained key occ big o (runReg key occ big ops).1).1 = .val n →
    n.entityDim = 2 → n.domainDim = 3 → Enumerates ids n.subDomainFragments →
    ∃ w, BRepWriter.ofContained key T ids n = .val w ∧
      (∀ i, ∀ f ∈ (n.entityFragments i).getD [], FacesExported key T w f) ∧
      ∀ i, ∀ f ∈ (n.subDomainFragments i).getD [], SolidsExported key T w f

/-- Whatever the history, a network that has been built can be exported if and only if its entities are
two-dimensional and its sub-domains three-dimensional; the lookups of the writer never fail. -/
theorem C111_constructs (ops : List (Op Sh)) (o : Orders) (n : ContainedNetwork Sh) (ids : List ℕ)
    (hn : (Builder.buildContained key occ big o (runReg key occ big ops).1).1 = .val n)
    (hi : Enumerates ids n.subDomainFragments) :
    ((BRepWriter.ofContained key T ids n).isVal ↔ n.entityDim = 2 ∧ n.domainDim = 3) ∧
    ((BRepWriter.ofContained key T ids n).isThrown ↔ ¬ (n.entityDim = 2 ∧ n.domainDim = 3)) := by
  obtain ⟨h1, h2, -⟩ := built_entries key occ big hn
  unfold BRepWriter.ofContained
  by_cases he : n.entityDim = 2
  · by_cases hd : n.domainDim = 3
    · obtain ⟨l1, e1⟩ := lookupAll_succeeds n.indexMaps ids fun i h => (h1 i (h2 i ((hi.2 i).1 h))).2
      obtain ⟨l2, e2⟩ := lookupAll_succeeds n.subDomainFragments ids fun i h => (hi.2 i).1 h
      obtain ⟨l3, e3⟩ := lookupAll_succeeds n.entityFragments ids fun i h => (h1 i (h2 i ((hi.2 i).1 h))).1
      rw [if_neg (by simpa using he), if_neg (by rw [he, hd]; norm_num), e1, e2, e3]
      simp [he, hd, Outcome.isVal, Outcome.isThrown, Outcome.val_bind, Outcome.pure_eq]
    · rw [if_neg (by simpa using he), if_pos (by rw [he]; intro h; exact hd (by rw [h]; norm_num))]
      simp [he, hd, Outcome.isVal, Outcome.isThrown]
  · rw [if_pos he]
    simp [he, Outcome.isVal, Outcome.isThrown]

/-- The claim holds if a sub-domain has been defined for each network, and no shape has been registered for
two sub-domains (missing: networks without sub-domain, see `C111_disproof`). -/
theorem C111_exports_partial (laws : Laws key T) (ops : List (Op Sh)) (o : Orders) (n : ContainedNetwork Sh)
    (ids : List ℕ) (hv : ValidOrders o (runReg key occ big ops).1)
    (hdd : DistinctDomains key (runReg key occ big ops).1)
    (hnet : ∀ x ∈ (runReg key occ big ops).2.entities, ∃ y ∈ (runReg key occ big ops).2.domains, y.1 = x.1)
    (hns : NoSharedShapes key occ (runReg key occ big ops).1
      (o.subDomains.filterMap (runReg key occ big ops).1.subDomains)
      (tolerance occ big o (runReg key occ big ops).1))
    (hn : (Builder.buildContained key occ big o (runReg key occ big ops).1).1 = .val n)
    (he : n.entityDim = 2) (hd : n.domainDim = 3) (hi : Enumerates ids n.subDomainFragments) :
    ∃ w, BRepWriter.ofContained key T ids n = .val w ∧
      (∀ i, ∀ f ∈ (n.entityFragments i).getD [], FacesExported key T w f) ∧
      ∀ i, ∀ f ∈ (n.subDomainFragments i).getD [], SolidsExported key T w f := by
  have hc := ((C111_constructs key occ big T ops o n ids hn hi).1).2 ⟨he, hd⟩
  cases hw : BRepWriter.ofContained key T ids n with
  | thrown e => rw [hw] at hc; exact hc.elim
  | nan => rw [hw] at hc; exact hc.elim
  | ub => rw [hw] at hc; exact hc.elim
  | val w =>
    obtain ⟨vs, es, ws, fs, shs, sos, hcomp, ⟨-, -, -, hf, -, hso⟩, -⟩ :=
      C47_contained key T laws ids n w hw
    obtain ⟨-, -, h3⟩ := built_entries key occ big hn
    obtain ⟨-, c2, c3⟩ := C43_consistent key occ big ops
    obtain ⟨_, -, hfr, -, -⟩ := C44_contained_partial key occ big ops o n hv hns hdd hn
    refine ⟨w, rfl, fun i f hfi x hx => ?_, fun i f hfi x hx => ?_⟩
    · have hid : i ∈ ids := by
        refine (hi.2 i).2 (h3 hdd hv.subDomains i ?_)
        obtain ⟨s, hs, -⟩ := (hfr i f).1 hfi
        rw [c3 i] at hs
        obtain ⟨y, hy, -⟩ := List.mem_map.1 hs
        obtain ⟨hy1, hy2⟩ := List.mem_filter.1 hy
        obtain ⟨⟨k, d, t⟩, hz, hzk⟩ := hnet y hy1
        have hyi : y.1 = i := by simpa using hy2
        have hki : k = i := by rw [← hyi]; exact hzk
        subst hki
        rw [(c2 k t).2 ⟨d, hz⟩]
        simp
      obtain ⟨y, hy, e⟩ := List.mem_map.1 ((hf.2 (key x)).2 ⟨x, Or.inr ⟨f, ⟨i, hid, by
        cases hl : n.entityFragments i with
        | none => rw [hl] at hfi; simp at hfi
        | some l => rw [hl] at hfi; exact ⟨l, rfl, hfi⟩⟩, hx⟩, rfl⟩)
      exact ⟨y, by rw [hcomp]; simp [hy], e⟩
    · cases hl : n.subDomainFragments i with
      | none => rw [hl] at hfi; simp at hfi
      | some l =>
        rw [hl] at hfi
        have hid : i ∈ ids := (hi.2 i).2 (by rw [hl]; simp)
        obtain ⟨y, hy, e⟩ := List.mem_map.1 ((hso.2 (key x)).2 ⟨x, ⟨i, f, ⟨hid, l, hl, hfi⟩, hx⟩, rfl⟩)
        exact ⟨y, by rw [hcomp]; simp [hy], e⟩

/-! ### A network without sub-domain -/

/-- A CAD kernel that leaves all shapes as they are. -/
def keepOcc : Occ (ℕ × Bool) :=
  ⟨fun _ _ _ => .val ⟨fun _ => false, fun _ => [], fun _ => []⟩,
    fun _ _ => .val ⟨fun _ => false, fun _ => [], fun _ => []⟩, fun _ _ => .val (1, true), fun _ => 1⟩

/-- The solid `1` as sub-domain with id `1`, and the face `5` in the network of sub-domain `i`. -/
def solidAndFaceOps (i : ℕ) : List (Op (ℕ × Bool)) :=
  [.setEpsilon 1, .addConfiningSubDomain (.val 3) (.val (1, true)) 1, .addEntity (.val 2) (.val (5, true)) i]

/-- State after `solidAndFaceOps`. -/
noncomputable def solidAndFace (i : ℕ) : Builder (ℕ × Bool) :=
  { (Builder.init : Builder (ℕ × Bool)) with
    eps := some 1, epsIsSet := true, domainDim := some 3, entityDim := some 2
    subDomains := Function.update (fun _ => none) 1 (some (1, true))
    bounds := Function.update (fun _ => none) 1 (some true)
    networks := Function.update (fun _ => none) i (some [(5, true)]) }

theorem solidAndFace_run (i : ℕ) : runReg Prod.fst keepOcc 1 (solidAndFaceOps i) =
    (solidAndFace i, ⟨[(1, 3, (1, true))], [(i, 2, (5, true))]⟩) := by
  have n0 : ¬ Builder.IsEmpty (Function.update (fun _ => none) 1 (some (1, true)) : ℕ → Option (ℕ × Bool)) :=
    fun h => by have := h 1; simp at this
  have em1 : Builder.IsEmpty (fun _ => none : ℕ → Option (ℕ × Bool)) := fun _ => rfl
  have em2 : Builder.IsEmpty (fun _ => none : ℕ → Option (List (ℕ × Bool))) := fun _ => rfl
  simp [runReg, solidAndFaceOps, Builder.step, Builder.setEpsilon,
    Builder.addConfiningSubDomain, Builder.addSubDomain, Builder.addSubDomainEntity, Builder.init, em1, em2,
    n0, solidAndFace, record]

/-- The orders of traversal. -/
def solidAndFaceOrders (i : ℕ) : Orders := ⟨[1], [i], if i = 1 then [1] else [1, i], if i = 1 then [1] else [1, i]⟩

theorem solidAndFace_orders (i : ℕ) : ValidOrders (solidAndFaceOrders i) (solidAndFace i) := by
  refine ⟨⟨by simp [solidAndFaceOrders], fun j => ?_⟩, ⟨by simp [solidAndFaceOrders], fun j => ?_⟩,
    ⟨?_, fun j => ?_⟩, ⟨?_, fun j => ?_⟩⟩
  · by_cases h : j = 1 <;> simp [solidAndFaceOrders, solidAndFace, h]
  · by_cases h : j = i <;> simp [solidAndFaceOrders, solidAndFace, h]
  · by_cases h : i = 1
    · simp [solidAndFaceOrders, h]
    · have h' : ¬ 1 = i := fun e => h e.symm
      simp [solidAndFaceOrders, h, h']
  · by_cases h : i = 1
    · subst h; by_cases h : j = 1 <;> simp [solidAndFaceOrders, solidAndFace, h]
    · by_cases h1 : j = 1
      · simp [solidAndFaceOrders, solidAndFace, h, h1]
      · by_cases h2 : j = i <;> simp [solidAndFaceOrders, solidAndFace, h, h1, h2]
  · by_cases h : i = 1
    · simp [solidAndFaceOrders, h]
    · have h' : ¬ 1 = i := fun e => h e.symm
      simp [solidAndFaceOrders, h, h']
  · by_cases h : i = 1
    · subst h; by_cases h : j = 1 <;> simp [solidAndFaceOrders, solidAndFace, h]
    · by_cases h1 : j = 1
      · simp [solidAndFaceOrders, solidAndFace, h, h1]
      · by_cases h2 : j = i <;> simp [solidAndFaceOrders, solidAndFace, h, h1, h2]

/-- The face of the network 5, for which no sub-domain has been defined, is in the network but not in the
exported compound. -/
theorem lost_face : ∃ n w, (Builder.buildContained Prod.fst keepOcc 1 (solidAndFaceOrders 5) (solidAndFace 5)).1 =
      .val n ∧ n.entityDim = 2 ∧ n.domainDim = 3 ∧ Enumerates [1] n.subDomainFragments ∧
    n.entityFragments 5 = some [(5, true)] ∧
    BRepWriter.ofContained Prod.fst cornerTopo [1] n = .val w ∧ (5 : ℕ) ∉ w.compound.map Prod.fst := by
  refine ⟨_, _, rfl, rfl, rfl, ⟨by simp, fun i => ?_⟩, rfl, rfl, by decide⟩
  by_cases h : i = 1
  · subst h
    refine ⟨fun _ => ?_, fun _ => by simp⟩
    exact Option.some_ne_none [((1 : ℕ), true)]
  · refine ⟨fun h' => absurd (by simpa using h') h, fun h' => absurd ?_ h'⟩
    show Function.update (fun _ => (none : Option (List (ℕ × Bool)))) 1 (some [(1, true)]) i = none
    exact Function.update_of_ne h _ _

theorem C111_disproof : ¬ C111_full := by
  intro H
  obtain ⟨n, w, hn, he, hd, hi, hf, hw, hnot⟩ := lost_face
  obtain ⟨w', hw', hex, -⟩ := H (ℕ × Bool) ℕ Prod.fst keepOcc 1 cornerTopo (tableTopo_laws _ _ _ _ _ _)
    (solidAndFaceOps 5) (solidAndFaceOrders 5) n [1] (by rw [solidAndFace_run]; exact solidAndFace_orders 5)
    (by rw [solidAndFace_run]; exact hn) he hd hi
  rw [hw] at hw'
  simp only [Outcome.val.injEq] at hw'
  subst hw'
  obtain ⟨y, hy, e⟩ := hex 5 (5, true) (by rw [hf]; simp) (5, true) (by decide)
  exact hnot (List.mem_map.2 ⟨y, hy, e⟩)

/-- Non-trivial instance: the face in the network of the sub-domain meets all hypotheses of
`C111_exports_partial`. -/
example : ∃ n w, (Builder.buildContained Prod.fst keepOcc 1 (solidAndFaceOrders 1)
      (runReg Prod.fst keepOcc 1 (solidAndFaceOps 1)).1).1 = .val n ∧
    BRepWriter.ofContained Prod.fst cornerTopo [1] n = .val w ∧
    (∀ i, ∀ f ∈ (n.entityFragments i).getD [], FacesExported Prod.fst cornerTopo w f) ∧
    ∃ y ∈ w.compound, y.1 = 5 := by
  have hr := solidAndFace_run 1
  have hb : ∃ n, (Builder.buildContained Prod.fst keepOcc 1 (solidAndFaceOrders 1) (solidAndFace 1)).1 =
      .val n ∧ n.entityDim = 2 ∧ n.domainDim = 3 ∧ n.entityFragments 1 = some [(5, true)] ∧
      Enumerates [1] n.subDomainFragments := by
    refine ⟨_, rfl, rfl, rfl, rfl, ⟨by simp, fun i => ?_⟩⟩
    by_cases h : i = 1
    · subst h
      refine ⟨fun _ => ?_, fun _ => by simp⟩
      exact Option.some_ne_none [((1 : ℕ), true)]
    · refine ⟨fun h' => absurd (by simpa using h') h, fun h' => absurd ?_ h'⟩
      show Function.update (fun _ => (none : Option (List (ℕ × Bool)))) 1 (some [(1, true)]) i = none
      exact Function.update_of_ne h _ _
  obtain ⟨n, hn, he, hd, hf, hi⟩ := hb
  obtain ⟨w, hw, h1, -⟩ := C111_exports_partial Prod.fst keepOcc 1 cornerTopo (tableTopo_laws _ _ _ _ _ _)
    (solidAndFaceOps 1) (solidAndFaceOrders 1) n [1] (by rw [hr]; exact solidAndFace_orders 1)
    (by
      rw [hr]
      intro i j s t hs ht _
      by_cases h0 : i = 1
      · by_cases h1 : j = 1
        · rw [h0, h1]
        · simp [solidAndFace, h1] at ht
      · simp [solidAndFace, h0] at hs)
    (by rw [hr]; simp)
    (by
      rw [hr]
      intro i j hij s hs t ht
      by_cases h0 : i = 1
      · have h1 : j ≠ 1 := fun e => hij (h0.trans e.symm)
        simp [solidAndFace, h1] at ht
      · simp [solidAndFace, h0] at hs)
    (by rw [hr]; exact hn) he hd hi
  exact ⟨n, w, by rw [hr]; exact hn, hw, h1, h1 1 (5, true) (by rw [hf]; simp) (5, true) (by decide)⟩

end Props
