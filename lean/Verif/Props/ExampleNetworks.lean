import Verif.Model.Appl.Networks
import Verif.Props.EndToEnd
import Verif.Props.ToleranceKept
import Mathlib.Data.Set.Finite.Basic
import Mathlib.Data.Set.Finite.Lattice

/-!
# The networks built by the example programs
-/

namespace Props
open Verif Frackit Spec.Builder Spec.BRep Spec.Geo
open Frackit.Builder (Op ContainedNetwork)

section
variable {Sh K : Type} [DecidableEq Sh] [DecidableEq K] (key : Sh → K) (occ : Occ Sh) (big : ℝ)

/-! ## C128 The example programs build and write their networks -/

/-- Every call of the program returns normally. -/
def Accepted (ops : List (Op Sh)) : Prop :=
  ∀ pre op post, ops = pre ++ op :: post → (Builder.step key occ big (runReg key occ big pre).1 op).1 = .val ()

variable {key occ big}

theorem accepted_nil : Accepted key occ big ([] : List (Op Sh)) := by
  intro pre op post h
  simp at h

theorem accepted_snoc {ops : List (Op Sh)} {op : Op Sh} (h : Accepted key occ big ops)
    (ho : (Builder.step key occ big (runReg key occ big ops).1 op).1 = .val ()) :
    Accepted key occ big (ops ++ [op]) := by
  intro pre op' post e
  rcases List.eq_nil_or_concat post with rfl | ⟨post', x, rfl⟩
  · obtain ⟨rfl, e2⟩ := List.append_inj' e rfl
    cases e2
    exact ho
  · rw [List.concat_eq_append, ← List.cons_append, ← List.append_assoc] at e
    obtain ⟨rfl, -⟩ := List.append_inj' e rfl
    exact h _ _ _ rfl

/-- All calls so far have been accepted, the geometries passed are supported and these are the registrations. -/
structure Passed (key : Sh → K) (occ : Occ Sh) (big : ℝ) (ops : List (Op Sh)) (doms ents : List (ℕ × ℤ × Sh)) :
    Prop where
  accepted : Accepted key occ big ops
  supported : ∀ op ∈ ops, Supported op
  reg : (runReg key occ big ops).2 = ⟨doms, ents⟩

theorem passed_nil : Passed key occ big ([] : List (Op Sh)) [] [] := ⟨accepted_nil, by simp, rfl⟩

theorem passed_domain {ops : List (Op Sh)} {doms : List (ℕ × ℤ × Sh)} (h : Passed key occ big ops doms []) {d : ℤ}
    {s : Sh} {i : ℕ} (hd : ∀ x ∈ doms, x.1 ≠ i ∧ x.2.1 = d) :
    Passed key occ big (ops ++ [.addSubDomain (.val d) (.val s) i]) (doms ++ [(i, d, s)]) [] ∧
    Passed key occ big (ops ++ [.addConfiningSubDomain (.val d) (.val s) i]) (doms ++ [(i, d, s)]) [] := by
  obtain ⟨a, b⟩ := (C43_accepts_partial key occ big ops h.supported d s i).1
    (by rw [h.reg]; exact ⟨hd, by simp⟩)
  constructor
  · refine ⟨accepted_snoc h.accepted a, ?_, ?_⟩
    · intro op ho
      rcases List.mem_append.1 ho with ho | ho
      · exact h.supported op ho
      · rw [List.mem_singleton.1 ho]; exact ⟨trivial, trivial⟩
    · rw [runReg_snoc]
      simp only [Builder.step]
      rw [a, h.reg]
      rfl
  · refine ⟨accepted_snoc h.accepted b, ?_, ?_⟩
    · intro op ho
      rcases List.mem_append.1 ho with ho | ho
      · exact h.supported op ho
      · rw [List.mem_singleton.1 ho]; exact ⟨trivial, trivial⟩
    · rw [runReg_snoc]
      simp only [Builder.step]
      rw [b, h.reg]
      rfl

theorem passed_entity {ops : List (Op Sh)} {doms ents : List (ℕ × ℤ × Sh)} (h : Passed key occ big ops doms ents)
    {d : ℤ} {s : Sh} {i : ℕ} (he : ∀ x ∈ ents, x.2.1 = d) (hd : ∀ x ∈ doms, d < x.2.1) :
    Passed key occ big (ops ++ [.addEntity (.val d) (.val s) i]) doms (ents ++ [(i, d, s)]) := by
  have a := (C43_accepts_partial key occ big ops h.supported d s i).2 (by rw [h.reg]; exact ⟨he, hd⟩)
  refine ⟨accepted_snoc h.accepted a, ?_, ?_⟩
  · intro op ho
    rcases List.mem_append.1 ho with ho | ho
    · exact h.supported op ho
    · rw [List.mem_singleton.1 ho]; exact ⟨trivial, trivial⟩
  · rw [runReg_snoc]
    simp only [Builder.step]
    rw [a, h.reg]
    rfl

theorem passed_clear {ops : List (Op Sh)} {doms ents : List (ℕ × ℤ × Sh)} (h : Passed key occ big ops doms ents) :
    Passed key occ big (ops ++ [.clear]) [] [] := by
  refine ⟨accepted_snoc h.accepted rfl, ?_, ?_⟩
  · intro op ho
    rcases List.mem_append.1 ho with ho | ho
    · exact h.supported op ho
    · rw [List.mem_singleton.1 ho]; trivial
  · rw [runReg_snoc]; rfl

theorem map_isVal {α : Type} {o : Outcome α} (h : o.isVal) : (fun _ => ()) <$> o = .val () := by
  cases o with
  | val a => rfl
  | thrown e => exact h.elim
  | nan => exact h.elim
  | ub => exact h.elim

theorem passed_build {ops : List (Op Sh)} {doms ents : List (ℕ × ℤ × Sh)} (h : Passed key occ big ops doms ents)
    {o : Orders} (hv : ValidOrders o (runReg key occ big ops).1)
    (hk : KernelOk occ (tolerance occ big o (runReg key occ big ops).1)) (he : ents ≠ []) :
    Passed key occ big (ops ++ [.buildNetwork o]) doms ents ∧
    (doms ≠ [] → Passed key occ big (ops ++ [.buildContained o]) doms ents) := by
  obtain ⟨a, b⟩ := C44_build_succeeds key occ big ops o hv hk (by rw [h.reg]; exact he)
  constructor
  · refine ⟨accepted_snoc h.accepted (map_isVal a), ?_, ?_⟩
    · intro op ho
      rcases List.mem_append.1 ho with ho | ho
      · exact h.supported op ho
      · rw [List.mem_singleton.1 ho]; trivial
    · rw [runReg_snoc, ← h.reg]; rfl
  · intro hd
    refine ⟨accepted_snoc h.accepted (map_isVal (b (by rw [h.reg]; exact hd))), ?_, ?_⟩
    · intro op ho
      rcases List.mem_append.1 ho with ho | ho
      · exact h.supported op ho
      · rw [List.mem_singleton.1 ho]; trivial
    · rw [runReg_snoc, ← h.reg]; rfl

variable {E : Type}

/-- The geometry is given to the CAD kernel as a face `f e`, or a solid: its dimension is 2 or 3. -/
def GivenAs (geo : E → Outcome ℤ × Outcome Sh) (d : ℤ) (f : E → Sh) (l : List E) : Prop :=
  ∀ e ∈ l, geo e = (.val d, .val (f e))

theorem passed_entities {geo : E → Outcome ℤ × Outcome Sh} {f : E → Sh} (l : List E) :
    ∀ {ops : List (Op Sh)} {doms ents : List (ℕ × ℤ × Sh)}, Passed key occ big ops doms ents →
    GivenAs geo 2 f l → ∀ {i : ℕ}, (∀ x ∈ ents, x.2.1 = 2) → (∀ x ∈ doms, x.2.1 = 3) →
    Passed key occ big (ops ++ Appl.entityCalls geo l i) doms (ents ++ l.map fun e => (i, 2, f e)) := by
  induction l with
  | nil =>
    intro ops doms ents h _ i _ _
    simpa [Appl.entityCalls] using h
  | cons a t ih =>
    intro ops doms ents h hg i he hd
    have h1 := passed_entity h (d := 2) (s := f a) (i := i) he (fun x hx => by rw [hd x hx]; norm_num)
    have := ih h1 (fun e he => hg e (List.mem_cons_of_mem _ he)) (i := i)
      (by
        intro x hx
        rcases List.mem_append.1 hx with hx | hx
        · exact he x hx
        · rw [List.mem_singleton.1 hx]) hd
    simp only [List.append_assoc, List.singleton_append] at this
    simpa [Appl.entityCalls, hg a List.mem_cons_self] using this

/-- The dimensions stored in the built networks are those of the registrations. -/
theorem built_dims {ops : List (Op Sh)} {doms ents : List (ℕ × ℤ × Sh)} (h : Passed key occ big ops doms ents)
    {o : Orders} (he : ents ≠ []) (hed : ∀ x ∈ ents, x.2.1 = 2) (hdd : ∀ x ∈ doms, x.2.1 = 3) :
    (∀ n, (Builder.buildNetwork key occ big o (runReg key occ big ops).1).1 = .val n → n.entityDim = 2) ∧
    ∀ n, doms ≠ [] → (Builder.buildContained key occ big o (runReg key occ big ops).1).1 = .val n →
      n.entityDim = 2 ∧ n.domainDim = 3 := by
  have hinv := runReg_inv key occ big ops
  rw [h.reg] at hinv
  obtain ⟨e, hee, hall, -⟩ := hinv.entDim (nonempty_net hinv he)
  obtain ⟨x, hx⟩ := List.exists_mem_of_ne_nil _ he
  have h2 : (runReg key occ big ops).1.entityDim = some 2 := by rw [hee, ← hall x hx, hed x hx]
  constructor
  · intro n hn
    have hd := prepare_data key occ big o true (runReg key occ big ops).1
    unfold Builder.buildNetwork at hn
    cases hp : Builder.prepare key occ big o true (runReg key occ big ops).1 with
    | mk r b' =>
      rw [hp] at hn hd
      cases r with
      | thrown e => cases hn
      | nan => cases hn
      | ub => cases hn
      | val u =>
        simp only at hn
        rw [hd.entityDim, h2] at hn
        simp only [Outcome.val.injEq] at hn
        rw [← hn]
  · intro n hne hn
    obtain ⟨y, hy⟩ := List.exists_mem_of_ne_nil _ hne
    have h3 : (runReg key occ big ops).1.domainDim = some 3 := by rw [hinv.domDim y hy, hdd y hy]
    have hd := prepare_data key occ big o false (runReg key occ big ops).1
    unfold Builder.buildContained at hn
    cases hp : Builder.prepare key occ big o false (runReg key occ big ops).1 with
    | mk r b' =>
      rw [hp] at hn hd
      cases r with
      | thrown e => cases hn
      | nan => cases hn
      | ub => cases hn
      | val u =>
        simp only at hn
        rw [hd.entityDim, h2, hd.domainDim, h3] at hn
        simp only [Outcome.val.injEq] at hn
        rw [← hn]
        exact ⟨rfl, rfl⟩

/-- The shapes registered for the ids if all entities have the id `j`. -/
theorem passed_networks {ops : List (Op Sh)} {doms : List (ℕ × ℤ × Sh)} {j : ℕ} {l : List Sh}
    (h : Passed key occ big ops doms (l.map fun s => (j, 2, s))) :
    ((runReg key occ big ops).1.networks j).getD [] = l ∧ OnlyNetwork (runReg key occ big ops).1 j := by
  obtain ⟨-, -, c⟩ := C43_consistent key occ big ops
  rw [h.reg] at c
  constructor
  · rw [c j]
    simp [List.filter_map, Function.comp_def]
  · intro i hi
    rw [c i]
    simp [List.filter_map, Function.comp_def, Ne.symm hi]

theorem only_not_shared {b : Builder Sh} {j : ℕ} (h : OnlyNetwork b j) (doms : List Sh) (eps : ℝ) :
    NoSharedShapes key occ b doms eps := by
  intro i k hik s hs t ht
  by_cases hi : i = j
  · have hk : k ≠ j := fun e => hik (hi.trans e.symm)
    rw [h k hk] at ht
    simp at ht
  · rw [h i hi] at hs
    simp at hs

variable (key occ big) (T : Topo Sh)

/-- After the given calls, `build()` of an `EntityNetworkBuilder` returns a network of the faces `l`, which are all
registered with the id `j`; the file that the writer creates of it can be read, each part of a face is in exactly one
physical surface, the physical surface `k` consists of parts of the `k`-th face, and there are no physical volumes. -/
def WritesNetwork (ops : List (Op Sh)) (o : Orders) (j : ℕ) (l : List Sh) : Prop :=
  ((runReg key occ big ops).1.networks j).getD [] = l ∧
  ∃ n w, (Builder.buildNetwork key occ big o (runReg key occ big ops).1).1 = .val n ∧
    BRepWriter.ofNetwork key T n = .val w ∧
    ∀ (name : List Char) (h1 h2 : ℝ) (dOrd eOrd iOrd : List ℕ), (∀ c ∈ name, c ≠ '"') →
      IsTraversal w.domainToFragments dOrd → IsTraversal w.entityToFragments eOrd →
      IsTraversal w.intersectionsToFragments iOrd →
      ∃ h vs es ws fs text cs,
        w.compound = vs ++ es ++ ws ++ fs ∧ Complete key T (Spec.BRep.ofNetwork n) vs es ws fs [] [] ∧
        GmshWriter.text name h1 h2 dOrd eOrd iOrd w = .val text ∧ Spec.Geo.read text = some cs ∧
        (∀ f, EntityPart occ (runReg key occ big ops).1 o (tolerance occ big o (runReg key occ big ops).1) h j f →
          f ∈ T.faces f → ∃ i x, At fs i x ∧ key x = key f ∧ ∃! tag, InGroup cs .surface tag i) ∧
        GroupsByPosition key occ (runReg key occ big ops).1 o
          (tolerance occ big o (runReg key occ big ops).1) h fs cs j ∧
        ∀ tag i, ¬ InGroup cs .volume tag i

/-- The same for `build()` of a `ContainedEntityNetworkBuilder`; in addition each solid of a part of a sub-domain is in
exactly one physical volume, whose number is the id of the sub-domain. -/
def WritesContained (ops : List (Op Sh)) (o : Orders) (j : ℕ) (l : List Sh) : Prop :=
  ((runReg key occ big ops).1.networks j).getD [] = l ∧
  ∃ n, (Builder.buildContained key occ big o (runReg key occ big ops).1).1 = .val n ∧
    ∀ ids, Enumerates ids n.subDomainFragments → ∃ w, BRepWriter.ofContained key T ids n = .val w ∧
    ∀ (name : List Char) (h1 h2 : ℝ) (dOrd eOrd iOrd : List ℕ), (∀ c ∈ name, c ≠ '"') →
      IsTraversal w.domainToFragments dOrd → IsTraversal w.entityToFragments eOrd →
      IsTraversal w.intersectionsToFragments iOrd →
      ∃ h vs es ws fs shs sos text cs,
        w.compound = vs ++ es ++ ws ++ fs ++ shs ++ sos ∧
        Complete key T (Spec.BRep.ofContained ids n) vs es ws fs shs sos ∧
        GmshWriter.text name h1 h2 dOrd eOrd iOrd w = .val text ∧ Spec.Geo.read text = some cs ∧
        GroupsReflect key occ T (runReg key occ big ops).1 o
          (tolerance occ big o (runReg key occ big ops).1) h fs sos cs ∧
        GroupsByPosition key occ (runReg key occ big ops).1 o
          (tolerance occ big o (runReg key occ big ops).1) h fs cs j

/-- What the entities with the id `j` are confined to if `build()` is called after the given calls. -/
noncomputable def confinement (ops : List (Op Sh)) (o : Orders) (j : ℕ) : Option (Outcome Sh) :=
  confinesTo occ (runReg key occ big ops).1 (o.subDomains.filterMap (runReg key occ big ops).1.subDomains)
    (tolerance occ big o (runReg key occ big ops).1) j

variable {key occ big T}

theorem passed_writes (laws : Laws key T) {ops : List (Op Sh)} {doms : List (ℕ × ℤ × Sh)} {j : ℕ} {l : List Sh}
    (h : Passed key occ big ops doms (l.map fun s => (j, 2, s))) (hl : l ≠ []) {o : Orders}
    (hdd : ∀ x ∈ doms, x.2.1 = 3) (hv : ValidOrders o (runReg key occ big ops).1)
    (hk : KernelOk occ (tolerance occ big o (runReg key occ big ops).1)) : WritesNetwork key occ big T ops o j l := by
  obtain ⟨hnet, honly⟩ := passed_networks h
  have hed : ∀ x ∈ l.map (fun s => (j, (2 : ℤ), s)), x.2.1 = 2 := by
    intro x hx
    obtain ⟨s, -, rfl⟩ := List.mem_map.1 hx
    rfl
  have hne : l.map (fun s => (j, (2 : ℤ), s)) ≠ [] := by simpa using hl
  have hns := only_not_shared (key := key) (occ := occ) honly
    (o.subDomains.filterMap (runReg key occ big ops).1.subDomains) (tolerance occ big o (runReg key occ big ops).1)
  obtain ⟨a, -⟩ := C44_build_succeeds key occ big ops o hv hk (by rw [h.reg]; exact hne)
  cases hn : (Builder.buildNetwork key occ big o (runReg key occ big ops).1).1 with
  | thrown e => rw [hn] at a; exact a.elim
  | nan => rw [hn] at a; exact a.elim
  | ub => rw [hn] at a; exact a.elim
  | val n =>
    have hdim := (built_dims h (o := o) hne hed hdd).1 n hn
    obtain ⟨w, hw, H⟩ := C118_network_partial key occ big T laws ops o n hv hns hn hdim
    refine ⟨hnet, n, w, hn, hw, fun name h1 h2 dOrd eOrd iOrd hq t1 t2 t3 => ?_⟩
    obtain ⟨hh, -, vs, es, ws, fs, text, cs, -, c1, c2, c3, c4, c5, -, c6, -, c7⟩ := H name h1 h2 dOrd eOrd iOrd hq t1 t2 t3
    exact ⟨hh, vs, es, ws, fs, text, cs, c1, c2, c3, c4, c5 j, c7 j honly, c6⟩

theorem passed_contained (laws : Laws key T) {ops : List (Op Sh)} {doms : List (ℕ × ℤ × Sh)} {j : ℕ} {l : List Sh}
    (h : Passed key occ big ops doms (l.map fun s => (j, 2, s))) (hl : l ≠ []) {o : Orders}
    (hdd : ∀ x ∈ doms, x.2.1 = 3) (hj : ∃ x ∈ doms, x.1 = j)
    (hkeys : ∀ x ∈ doms, ∀ y ∈ doms, key x.2.2 = key y.2.2 → x.1 = y.1)
    (hv : ValidOrders o (runReg key occ big ops).1)
    (hk : KernelOk occ (tolerance occ big o (runReg key occ big ops).1)) :
    WritesContained key occ big T ops o j l := by
  obtain ⟨hnet, honly⟩ := passed_networks h
  have hed : ∀ x ∈ l.map (fun s => (j, (2 : ℤ), s)), x.2.1 = 2 := by
    intro x hx
    obtain ⟨s, -, rfl⟩ := List.mem_map.1 hx
    rfl
  have hne : l.map (fun s => (j, (2 : ℤ), s)) ≠ [] := by simpa using hl
  have hdne : doms ≠ [] := by
    obtain ⟨x, hx, -⟩ := hj
    exact List.ne_nil_of_mem hx
  have hns := only_not_shared (key := key) (occ := occ) honly
    (o.subDomains.filterMap (runReg key occ big ops).1.subDomains) (tolerance occ big o (runReg key occ big ops).1)
  obtain ⟨-, c, -⟩ := C43_consistent key occ big ops
  rw [h.reg] at c
  have hsound : SoundRegistration key occ big ops o := by
    refine ⟨hv, ?_, ?_, hns⟩
    · intro i k s t hs ht hst
      obtain ⟨d, hd⟩ := (c i s).1 hs
      obtain ⟨d', hd'⟩ := (c k t).1 ht
      exact hkeys _ hd _ hd' hst
    · rw [h.reg]
      intro x hx
      obtain ⟨s, -, rfl⟩ := List.mem_map.1 hx
      exact hj
  obtain ⟨-, a⟩ := C44_build_succeeds key occ big ops o hv hk (by rw [h.reg]; exact hne)
  have a := a (by rw [h.reg]; exact hdne)
  cases hn : (Builder.buildContained key occ big o (runReg key occ big ops).1).1 with
  | thrown e => rw [hn] at a; exact a.elim
  | nan => rw [hn] at a; exact a.elim
  | ub => rw [hn] at a; exact a.elim
  | val n =>
    obtain ⟨hd2, hd3⟩ := (built_dims h (o := o) hne hed hdd).2 n hdne hn
    refine ⟨hnet, n, hn, fun ids hi => ?_⟩
    obtain ⟨w, hw, H⟩ := C118_groups_partial key occ big T laws ops o n ids hsound hn hd2 hd3 hi
    refine ⟨w, hw, fun name h1 h2 dOrd eOrd iOrd hq t1 t2 t3 => ?_⟩
    obtain ⟨hh, -, vs, es, ws, fs, shs, sos, text, cs, -, c1, c2, c3, c4, c5, -, c6⟩ := H name h1 h2 dOrd eOrd iOrd hq t1 t2 t3
    exact ⟨hh, vs, es, ws, fs, shs, sos, text, cs, c1, c2, c3, c4, c5, c6 j honly⟩

/-- The settings of the builder after the calls: which sub-domains confine their entities, and that the entities of other
sub-domains are confined to the union. -/
structure Flags (key : Sh → K) (occ : Occ Sh) (big : ℝ) (ops : List (Op Sh)) (bounds : ℕ → Option Bool) : Prop where
  bounds : (runReg key occ big ops).1.bounds = bounds
  union : (runReg key occ big ops).1.confineUnion = true

theorem flags_nil : Flags key occ big ([] : List (Op Sh)) fun _ => none := ⟨rfl, rfl⟩

theorem flags_domain {ops : List (Op Sh)} {bd : ℕ → Option Bool} (h : Flags key occ big ops bd) {d : ℤ} {s : Sh} {i : ℕ}
    (ha : Accepted key occ big (ops ++ [.addSubDomain (.val d) (.val s) i])) :
    Flags key occ big (ops ++ [.addSubDomain (.val d) (.val s) i]) (Function.update bd i (some false)) ∧
    Flags key occ big (ops ++ [.addConfiningSubDomain (.val d) (.val s) i]) (Function.update bd i (some true)) := by
  have a : ((runReg key occ big ops).1.addSubDomain (.val d) (.val s) i).1 = .val () := ha _ _ [] rfl
  rcases addSubDomain_cases (runReg_inv key occ big ops) d (.val s) i with ⟨h1, -⟩ | ⟨-, -, ⟨s', hs', h1⟩ | ⟨h1, -⟩⟩
  · rw [a] at h1; exact h1.elim
  · constructor
    · refine ⟨?_, ?_⟩ <;> rw [runReg_snoc] <;> simp only [Builder.step] <;> rw [h1]
      · simp [h.bounds]
      · exact h.union
    · refine ⟨?_, ?_⟩ <;> rw [runReg_snoc] <;> simp only [Builder.step, Builder.addConfiningSubDomain] <;> rw [h1]
      · simp [h.bounds]
      · exact h.union
  · exact absurd trivial h1

theorem flags_entities {geo : E → Outcome ℤ × Outcome Sh} (l : List E) {i : ℕ} :
    ∀ {ops : List (Op Sh)} {bd : ℕ → Option Bool}, Flags key occ big ops bd →
    Flags key occ big (ops ++ Appl.entityCalls geo l i) bd := by
  induction l with
  | nil => intro ops bd h; simpa [Appl.entityCalls] using h
  | cons a t ih =>
    intro ops bd h
    have h1 : Flags key occ big (ops ++ [.addEntity (geo a).1 (geo a).2 i]) bd := by
      refine ⟨?_, ?_⟩ <;> rw [runReg_snoc] <;> simp only [Builder.step] <;> unfold Builder.addSubDomainEntity <;>
        simp only
      · rw [← h.bounds]; repeat' split
        all_goals rfl
      · rw [← h.union]; repeat' split
        all_goals rfl
    have := ih h1
    simpa [Appl.entityCalls] using this

theorem flags_clear {ops : List (Op Sh)} {bd : ℕ → Option Bool} (h : Flags key occ big ops bd) :
    Flags key occ big (ops ++ [.clear]) fun _ => none := by
  refine ⟨?_, ?_⟩ <;> rw [runReg_snoc]
  · rfl
  · exact h.union

theorem flags_build {ops : List (Op Sh)} {bd : ℕ → Option Bool} (h : Flags key occ big ops bd) (o : Orders) :
    Flags key occ big (ops ++ [.buildContained o]) bd ∧ Flags key occ big (ops ++ [.buildNetwork o]) bd := by
  refine ⟨⟨?_, ?_⟩, ⟨?_, ?_⟩⟩ <;> rw [runReg_snoc] <;> simp only [Builder.step]
  · rw [(buildContained_data key occ big o _).bounds]; exact h.bounds
  · rw [(buildContained_data key occ big o _).confineUnion]; exact h.union
  · rw [(buildNetwork_data key occ big o _).bounds]; exact h.bounds
  · rw [(buildNetwork_data key occ big o _).confineUnion]; exact h.union

/-- Example 1, for any two sets of faces: no call fails and the network is written with one physical surface per
entity, numbered from 1, the entities of the first set before those of the second one. -/
theorem C128_example1 (laws : Laws key T) (hk : ∀ eps, KernelOk occ eps) (geo : E → Outcome ℤ × Outcome Sh) (f : E → Sh)
    (set1 set2 : List E) (hg : GivenAs geo 2 f (set1 ++ set2)) (hne : set1 ++ set2 ≠ []) :
    Accepted key occ big (Appl.network1 geo set1 set2) ∧
    ∀ o, ValidOrders o (runReg key occ big (Appl.network1 geo set1 set2)).1 →
      WritesNetwork key occ big T (Appl.network1 geo set1 set2) o 0 ((set1 ++ set2).map f) := by
  have h1 := passed_entities (key := key) (occ := occ) (big := big) set1 passed_nil
    (fun e he => hg e (List.mem_append_left _ he)) (i := 0) (by simp) (by simp)
  have h2 := passed_entities set2 h1 (fun e he => hg e (List.mem_append_right _ he)) (i := 0) (by simp) (by simp)
  have h : Passed key occ big (Appl.network1 geo set1 set2) [] (((set1 ++ set2).map f).map fun s => (0, 2, s)) := by
    simpa [Appl.network1, Function.comp_def] using h2
  exact ⟨h.accepted, fun o hv => passed_writes laws h (by simpa using hne) (by simp) hv (hk _)⟩

/-- One confining sub-domain with id 1. -/
theorem one_domain (laws : Laws key T) (hk : ∀ eps, KernelOk occ eps) (geo : E → Outcome ℤ × Outcome Sh) (f : E → Sh)
    (domain : E) (solid : Sh) (hd : geo domain = (.val 3, .val solid)) (l : List E) (hg : GivenAs geo 2 f l) (hne : l ≠ []) :
    Accepted key occ big ([Appl.confiningCall geo domain 1] ++ Appl.entityCalls geo l 1) ∧
    ∀ o, ValidOrders o (runReg key occ big ([Appl.confiningCall geo domain 1] ++ Appl.entityCalls geo l 1)).1 →
      WritesContained key occ big T ([Appl.confiningCall geo domain 1] ++ Appl.entityCalls geo l 1) o 1 (l.map f) ∧
      confinement key occ big ([Appl.confiningCall geo domain 1] ++ Appl.entityCalls geo l 1) o 1 = some (.val solid) := by
  have h0 := (passed_domain (key := key) (occ := occ) (big := big) passed_nil (d := 3) (s := solid) (i := 1) (by simp))
  have e0 : Appl.confiningCall geo domain 1 = .addConfiningSubDomain (.val 3) (.val solid) 1 := by
    simp [Appl.confiningCall, hd]
  have f0 := (flags_domain flags_nil h0.1.accepted).2
  rw [← e0] at f0
  have h1 := h0.2
  rw [← e0] at h1
  have h2 := passed_entities l h1 hg (i := 1) (by simp) (by simp)
  have f2 := flags_entities (geo := geo) l (i := 1) f0
  have h : Passed key occ big ([Appl.confiningCall geo domain 1] ++ Appl.entityCalls geo l 1) [(1, 3, solid)]
      ((l.map f).map fun s => (1, 2, s)) := by
    simpa [Function.comp_def] using h2
  refine ⟨h.accepted, fun o hv => ⟨passed_contained laws h (by simpa using hne) (by simp) ⟨(1, 3, solid), by simp, rfl⟩ (by simp) hv
    (hk _), ?_⟩⟩
  obtain ⟨-, c, -⟩ := C43_consistent key occ big ([Appl.confiningCall geo domain 1] ++ Appl.entityCalls geo l 1)
  rw [h.reg] at c
  have hs := (c 1 solid).2 ⟨3, by simp⟩
  simp only [List.nil_append] at f2
  unfold confinement confinesTo
  rw [hs, f2.bounds]
  simp

/-- Example 2, for any two sets of faces and any solid: no call fails, the network is confined to the solid, and it is
written with one physical surface per entity, numbered from 1, the entities of the first set before those of the second
one, and the solid as physical volume 1. -/
theorem C128_example2 (laws : Laws key T) (hk : ∀ eps, KernelOk occ eps) (geo : E → Outcome ℤ × Outcome Sh) (f : E → Sh)
    (domain : E) (solid : Sh) (hd : geo domain = (.val 3, .val solid)) (set1 set2 : List E)
    (hg : GivenAs geo 2 f (set1 ++ set2)) (hne : set1 ++ set2 ≠ []) :
    Accepted key occ big (Appl.network2 geo domain set1 set2) ∧
    ∀ o, ValidOrders o (runReg key occ big (Appl.network2 geo domain set1 set2)).1 →
      WritesContained key occ big T (Appl.network2 geo domain set1 set2) o 1 ((set1 ++ set2).map f) ∧
      confinement key occ big (Appl.network2 geo domain set1 set2) o 1 = some (.val solid) := by
  have e : Appl.network2 geo domain set1 set2 =
      [Appl.confiningCall geo domain 1] ++ Appl.entityCalls geo (set1 ++ set2) 1 := by
    simp [Appl.network2, Appl.entityCalls]
  rw [e]
  exact one_domain laws hk geo f domain solid hd _ hg hne

/-- Example 4, for any three sets of faces and any solid. -/
theorem C128_example4 (laws : Laws key T) (hk : ∀ eps, KernelOk occ eps) (geo : E → Outcome ℤ × Outcome Sh) (f : E → Sh)
    (domain : E) (solid : Sh) (hd : geo domain = (.val 3, .val solid)) (set1 set2 set3 : List E)
    (hg : GivenAs geo 2 f (set1 ++ set2 ++ set3)) (hne : set1 ++ set2 ++ set3 ≠ []) :
    Accepted key occ big (Appl.network4Calls geo domain set1 set2 set3) ∧
    ∀ o, ValidOrders o (runReg key occ big (Appl.network4Calls geo domain set1 set2 set3)).1 →
      WritesContained key occ big T (Appl.network4Calls geo domain set1 set2 set3) o 1 ((set1 ++ set2 ++ set3).map f) ∧
      confinement key occ big (Appl.network4Calls geo domain set1 set2 set3) o 1 = some (.val solid) := by
  have e : Appl.network4Calls geo domain set1 set2 set3 =
      [Appl.confiningCall geo domain 1] ++ Appl.entityCalls geo (set1 ++ set2 ++ set3) 1 := by
    simp [Appl.network4Calls, Appl.entityCalls]
  rw [e]
  exact one_domain laws hk geo f domain solid hd _ hg hne

/-- Three sub-domains with the ids 1, 2, 3 after any calls by which nothing is registered. -/
theorem three_domains {ops : List (Op Sh)} (h : Passed key occ big ops [] []) (hf : Flags key occ big ops fun _ => none)
    (t0 t1 t2 : Sh) :
    (Passed key occ big (ops ++ [.addSubDomain (.val 3) (.val t0) 1, .addSubDomain (.val 3) (.val t1) 2,
        .addSubDomain (.val 3) (.val t2) 3]) [(1, 3, t0), (2, 3, t1), (3, 3, t2)] [] ∧
      ∃ bd, Flags key occ big (ops ++ [.addSubDomain (.val 3) (.val t0) 1, .addSubDomain (.val 3) (.val t1) 2,
        .addSubDomain (.val 3) (.val t2) 3]) bd ∧ bd 2 = some false) ∧
    (Passed key occ big (ops ++ [.addConfiningSubDomain (.val 3) (.val t0) 1, .addConfiningSubDomain (.val 3) (.val t1) 2,
        .addConfiningSubDomain (.val 3) (.val t2) 3]) [(1, 3, t0), (2, 3, t1), (3, 3, t2)] [] ∧
      ∃ bd, Flags key occ big (ops ++ [.addConfiningSubDomain (.val 3) (.val t0) 1,
        .addConfiningSubDomain (.val 3) (.val t1) 2, .addConfiningSubDomain (.val 3) (.val t2) 3]) bd ∧
        bd 2 = some true) := by
  have p1 := passed_domain h (d := 3) (s := t0) (i := 1) (by simp)
  have f1 := flags_domain hf p1.1.accepted
  constructor
  · have p2 := passed_domain p1.1 (d := 3) (s := t1) (i := 2) (by simp)
    have f2 := flags_domain f1.1 p2.1.accepted
    have p3 := passed_domain p2.1 (d := 3) (s := t2) (i := 3) (by simp)
    have f3 := flags_domain f2.1 p3.1.accepted
    refine ⟨by simpa using p3.1, _, by simpa using f3.1, ?_⟩
    simp [Function.update]
  · have p2 := passed_domain p1.2 (d := 3) (s := t1) (i := 2) (by simp)
    have f2 := flags_domain f1.2 p2.1.accepted
    have p3 := passed_domain p2.2 (d := 3) (s := t2) (i := 3) (by simp)
    have f3 := flags_domain f2.2 p3.1.accepted
    refine ⟨by simpa using p3.2, _, by simpa using f3.2, ?_⟩
    simp [Function.update]

theorem different_keys {t0 t1 t2 : Sh} (h : [key t0, key t1, key t2].Nodup) :
    ∀ x ∈ [(1, (3 : ℤ), t0), (2, 3, t1), (3, 3, t2)], ∀ y ∈ [(1, (3 : ℤ), t0), (2, 3, t1), (3, 3, t2)],
      key x.2.2 = key y.2.2 → x.1 = y.1 := by
  simp only [List.nodup_cons, List.mem_cons, List.not_mem_nil, or_false, not_or] at h
  obtain ⟨⟨h1, h2⟩, h3, -⟩ := h
  intro x hx y hy e
  simp only [List.mem_cons, List.not_mem_nil, or_false] at hx hy
  rcases hx with rfl | rfl | rfl <;> rcases hy with rfl | rfl | rfl <;> first | rfl | exact absurd e (by assumption) |
    exact absurd e.symm (by assumption)

/-- The geometries of the three layers of example 3. -/
structure Layers (key : Sh → K) (geo : E → Outcome ℤ × Outcome Sh) (s0 s1 s2 : E) (t0 t1 t2 : Sh) : Prop where
  first : geo s0 = (.val 3, .val t0)
  second : geo s1 = (.val 3, .val t1)
  third : geo s2 = (.val 3, .val t2)
  different : [key t0, key t1, key t2].Nodup

theorem passed3a {geo : E → Outcome ℤ × Outcome Sh} {f : E → Sh} {s0 s1 s2 : E} {t0 t1 t2 : Sh}
    (hL : Layers key geo s0 s1 s2 t0 t1 t2) {l : List E} (hg : GivenAs geo 2 f l) :
    Passed key occ big (Appl.network3a geo s0 s1 s2 l) [(1, 3, t0), (2, 3, t1), (3, 3, t2)]
      ((l.map f).map fun s => (2, 2, s)) ∧
    ∃ bd, Flags key occ big (Appl.network3a geo s0 s1 s2 l) bd ∧ bd 2 = some true := by
  obtain ⟨-, p, bd, hb, h2⟩ := three_domains (key := key) (occ := occ) (big := big) passed_nil flags_nil t0 t1 t2
  have p' := passed_entities l p hg (i := 2) (by simp) (by simp)
  have f' := flags_entities (geo := geo) l (i := 2) hb
  refine ⟨?_, bd, ?_, h2⟩
  · simpa [Appl.network3a, Appl.confiningCall, hL.first, hL.second, hL.third, Function.comp_def] using p'
  · simpa [Appl.network3a, Appl.confiningCall, hL.first, hL.second, hL.third] using f'

theorem passed3b (hk : ∀ eps, KernelOk occ eps) {geo : E → Outcome ℤ × Outcome Sh} {f : E → Sh} {s0 s1 s2 : E}
    {t0 t1 t2 : Sh} (hL : Layers key geo s0 s1 s2 t0 t1 t2) {l : List E} (hg : GivenAs geo 2 f l) (hne : l ≠ []) {o : Orders}
    (hv : ValidOrders o (runReg key occ big (Appl.network3a geo s0 s1 s2 l)).1) :
    Passed key occ big (Appl.network3b geo s0 s1 s2 l o) [(1, 3, t0), (2, 3, t1), (3, 3, t2)]
      ((l.map f).map fun s => (2, 2, s)) ∧
    ∃ bd, Flags key occ big (Appl.network3b geo s0 s1 s2 l o) bd ∧ bd 2 = some false := by
  obtain ⟨p0, bd0, hb0, -⟩ := passed3a (occ := occ) (big := big) hL hg
  have p1 := (passed_build p0 hv (hk _) (by simpa using hne)).2 (by simp)
  obtain ⟨⟨p, bd, hb, h2⟩, -⟩ := three_domains (passed_clear p1) (flags_clear (flags_build hb0 o).1) t0 t1 t2
  have p' := passed_entities l p hg (i := 2) (by simp) (by simp)
  have f' := flags_entities (geo := geo) l (i := 2) hb
  refine ⟨?_, bd, ?_, h2⟩
  · simpa [Appl.network3b, Appl.domainCall, hL.first, hL.second, hL.third, Function.comp_def] using p'
  · simpa [Appl.network3b, Appl.domainCall, hL.first, hL.second, hL.third] using f'

theorem passed3c {geo : E → Outcome ℤ × Outcome Sh} {f : E → Sh} {s1 : E} {t1 : Sh}
    (hd : geo s1 = (.val 3, .val t1)) {l : List E} (hg : GivenAs geo 2 f l) :
    Passed key occ big (Appl.network3c geo s1 l) [(2, 3, t1)] ((l.map f).map fun s => (2, 2, s)) ∧
    ∃ bd, Flags key occ big (Appl.network3c geo s1 l) bd ∧ bd 2 = some true := by
  have p := (passed_domain (key := key) (occ := occ) (big := big) passed_nil (d := 3) (s := t1) (i := 2) (by simp))
  have hb := (flags_domain flags_nil p.1.accepted).2
  have p' := passed_entities l p.2 hg (i := 2) (by simp) (by simp)
  have f' := flags_entities (geo := geo) l (i := 2) hb
  refine ⟨?_, Function.update (fun _ => none) 2 (some true), ?_, ?_⟩
  · simpa [Appl.network3c, Appl.confiningCall, hd, Function.comp_def] using p'
  · simpa [Appl.network3c, Appl.confiningCall, hd] using f'
  · simp [Function.update]

theorem passed3d (hk : ∀ eps, KernelOk occ eps) {geo : E → Outcome ℤ × Outcome Sh} {f : E → Sh} {s1 : E} {t1 : Sh}
    (hd : geo s1 = (.val 3, .val t1)) {l : List E} (hg : GivenAs geo 2 f l) (hne : l ≠ []) {o : Orders}
    (hv : ValidOrders o (runReg key occ big (Appl.network3c geo s1 l)).1) (i : ℕ) :
    Passed key occ big (Appl.network3d geo s1 l o i) [] ((l.map f).map fun s => (i, 2, s)) ∧
    Flags key occ big (Appl.network3d geo s1 l o i) fun _ => none := by
  obtain ⟨p0, bd0, hb0, -⟩ := passed3c (key := key) (occ := occ) (big := big) hd hg
  have p1 := (passed_build p0 hv (hk _) (by simpa using hne)).1
  have p' := passed_entities l (passed_clear p1) hg (i := i) (by simp) (by simp)
  have f' := flags_entities (geo := geo) l (i := i) (flags_clear (flags_build hb0 o).2)
  refine ⟨?_, ?_⟩
  · simpa [Appl.network3d, Function.comp_def] using p'
  · simpa [Appl.network3d] using f'

theorem confinement_of {ops : List (Op Sh)} {doms ents : List (ℕ × ℤ × Sh)} (h : Passed key occ big ops doms ents)
    {bd : ℕ → Option Bool} (hf : Flags key occ big ops bd) {j : ℕ} (o : Orders) :
    (∀ s, (j, (3 : ℤ), s) ∈ doms → bd j = some true → confinement key occ big ops o j = some (.val s)) ∧
    (∀ s, (j, (3 : ℤ), s) ∈ doms → bd j = some false → confinement key occ big ops o j =
      some (unionShape occ (o.subDomains.filterMap (runReg key occ big ops).1.subDomains)
        (tolerance occ big o (runReg key occ big ops).1))) ∧
    (bd j = none → confinement key occ big ops o j = none) := by
  obtain ⟨-, c, -⟩ := C43_consistent key occ big ops
  rw [h.reg] at c
  refine ⟨fun s hs hb => ?_, fun s hs hb => ?_, fun hb => ?_⟩
  · unfold confinement confinesTo
    rw [(c j s).2 ⟨3, hs⟩, hf.bounds, hb]
  · unfold confinement confinesTo
    rw [(c j s).2 ⟨3, hs⟩, hf.bounds, hb]
    simp [hf.union]
  · unfold confinement confinesTo
    rw [hf.bounds, hb]
    cases (runReg key occ big ops).1.subDomains j <;> rfl

/-- Example 3, for any set of faces and three different solids.

* Contained and confined: no call fails, the entities are confined to the second solid.
* Contained and unconfined, with the same builder: no call fails, the entities are confined to the union of the solids.
* Uncontained and confined: no call fails, the entities are confined to the second solid.
* Uncontained and unconfined, with the same builder and any id: no call fails and the entities are not confined.

In each case the written file has one physical surface per entity, numbered from 1 in the order in which the entities
are exported. -/
theorem C128_example3 (laws : Laws key T) (hk : ∀ eps, KernelOk occ eps) (geo : E → Outcome ℤ × Outcome Sh) (f : E → Sh)
    (s0 s1 s2 : E) (t0 t1 t2 : Sh) (hL : Layers key geo s0 s1 s2 t0 t1 t2) (l : List E) (hg : GivenAs geo 2 f l)
    (hne : l ≠ []) :
    (Accepted key occ big (Appl.network3a geo s0 s1 s2 l) ∧
      ∀ o, ValidOrders o (runReg key occ big (Appl.network3a geo s0 s1 s2 l)).1 →
        WritesContained key occ big T (Appl.network3a geo s0 s1 s2 l) o 2 (l.map f) ∧
        confinement key occ big (Appl.network3a geo s0 s1 s2 l) o 2 = some (.val t1) ∧
        Accepted key occ big (Appl.network3b geo s0 s1 s2 l o) ∧
        ∀ o', ValidOrders o' (runReg key occ big (Appl.network3b geo s0 s1 s2 l o)).1 →
          WritesContained key occ big T (Appl.network3b geo s0 s1 s2 l o) o' 2 (l.map f) ∧
          confinement key occ big (Appl.network3b geo s0 s1 s2 l o) o' 2 =
            some (unionShape occ
              (o'.subDomains.filterMap (runReg key occ big (Appl.network3b geo s0 s1 s2 l o)).1.subDomains)
              (tolerance occ big o' (runReg key occ big (Appl.network3b geo s0 s1 s2 l o)).1))) ∧
    Accepted key occ big (Appl.network3c geo s1 l) ∧
      ∀ o, ValidOrders o (runReg key occ big (Appl.network3c geo s1 l)).1 →
        WritesNetwork key occ big T (Appl.network3c geo s1 l) o 2 (l.map f) ∧
        confinement key occ big (Appl.network3c geo s1 l) o 2 = some (.val t1) ∧
        ∀ i, Accepted key occ big (Appl.network3d geo s1 l o i) ∧
          ∀ o', ValidOrders o' (runReg key occ big (Appl.network3d geo s1 l o i)).1 →
            WritesNetwork key occ big T (Appl.network3d geo s1 l o i) o' i (l.map f) ∧
            confinement key occ big (Appl.network3d geo s1 l o i) o' i = none := by
  have hne' : l.map f ≠ [] := by simpa using hne
  obtain ⟨pa, ba, fa, ha⟩ := passed3a (key := key) (occ := occ) (big := big) hL hg
  obtain ⟨pc, bc, fc, hc⟩ := passed3c (key := key) (occ := occ) (big := big) hL.second hg
  refine ⟨⟨pa.accepted, fun o hv => ?_⟩, pc.accepted, fun o hv => ?_⟩
  · obtain ⟨pb, bb, fb, hb⟩ := passed3b (key := key) (occ := occ) (big := big) hk hL hg hne hv
    refine ⟨passed_contained laws pa hne' (by simp) ⟨(2, 3, t1), by simp, rfl⟩ (different_keys hL.different) hv (hk _),
      (confinement_of pa fa o).1 t1 (by simp) ha, pb.accepted, fun o' hv' => ?_⟩
    exact ⟨passed_contained laws pb hne' (by simp) ⟨(2, 3, t1), by simp, rfl⟩ (different_keys hL.different) hv' (hk _),
      (confinement_of pb fb o').2.1 t1 (by simp) hb⟩
  · refine ⟨passed_writes laws pc hne' (by simp) hv (hk _), (confinement_of pc fc o).1 t1 (by simp) hc, fun i => ?_⟩
    obtain ⟨pd, fd⟩ := passed3d (key := key) (occ := occ) (big := big) hk hL.second hg hne hv i
    exact ⟨pd.accepted, fun o' hv' => ⟨passed_writes laws pd hne' (by simp) hv' (hk _),
      (confinement_of pd fd o').2.2 rfl⟩⟩

/-- The last network of example 3 is built with the tolerance of the layer confining the network before, although
nothing but the entities is registered at that time; the second contained network with the tolerance of the first. -/
theorem C128_tolerance (geo : E → Outcome ℤ × Outcome Sh) (s0 s1 s2 : E) (l : List E) (o o' : Orders) (i : ℕ) :
    tolerance occ big o' (runReg key occ big (Appl.network3d geo s1 l o i)).1 =
      tolerance occ big o (runReg key occ big (Appl.network3c geo s1 l)).1 ∧
    tolerance occ big o' (runReg key occ big (Appl.network3b geo s0 s1 s2 l o)).1 =
      tolerance occ big o (runReg key occ big (Appl.network3a geo s0 s1 s2 l)).1 := by
  simp only [runReg_runFrom]
  constructor
  · have := C46_tolerance_kept key occ big (Appl.network3c geo s1 l) (.clear :: Appl.entityCalls geo l i) o o'
      (.buildNetwork o) (Or.inr rfl) (by
        intro op h
        rcases List.mem_cons.1 h with rfl | h
        · exact id
        · obtain ⟨e, -, rfl⟩ := List.mem_map.1 h
          exact id)
    rw [← this]
    simp [Appl.network3d]
  · have := C46_tolerance_kept key occ big (Appl.network3a geo s0 s1 s2 l)
      (.clear :: Appl.domainCall geo s0 1 :: Appl.domainCall geo s1 2 :: Appl.domainCall geo s2 3 ::
        Appl.entityCalls geo l 2) o o' (.buildContained o) (Or.inl rfl) (by
        intro op h
        simp only [List.mem_cons] at h
        rcases h with rfl | rfl | rfl | rfl | h
        · exact id
        · exact id
        · exact id
        · exact id
        · obtain ⟨e, -, rfl⟩ := List.mem_map.1 h
          exact id)
    rw [← this]
    simp [Appl.network3b]

/-! ### The hypotheses can be met -/

theorem step_finite (b : Builder Sh) (op : Op Sh) (h : {i | b.networks i ≠ none}.Finite) :
    {i | (Builder.step key occ big b op).2.networks i ≠ none}.Finite := by
  have hadd : ∀ d s i, (b.addSubDomain d s i).2.networks = b.networks := by
    intro d s i
    unfold Builder.addSubDomain
    repeat' split
    all_goals rfl
  have hupd : ∀ (j : ℕ) (x : Option (List Sh)), {i | Function.update b.networks j x i ≠ none}.Finite := by
    intro j x
    refine (h.insert j).subset fun i hi => ?_
    by_cases hij : i = j
    · exact Or.inl hij
    · right
      simpa [Function.update_of_ne hij] using hi
  cases op with
  | addSubDomain d s i => simp only [Builder.step]; rw [hadd]; exact h
  | addConfiningSubDomain d s i =>
    have := hadd d s i
    simp only [Builder.step, Builder.addConfiningSubDomain]
    cases ha : b.addSubDomain d s i with
    | mk r b1 =>
      rw [ha] at this
      cases r <;> simp only <;> rw [show b1.networks = b.networks from this] <;> exact h
  | addEntity d s i =>
    simp only [Builder.step]
    unfold Builder.addSubDomainEntity
    simp only
    repeat' split
    all_goals first | exact h | exact hupd _ _
  | clear => simp [Builder.step, Builder.clear]
  | setEpsilon e => exact h
  | setDefaultEpsilon o => exact h
  | setConfineToSubDomainUnion v => exact h
  | buildContained o => simp only [Builder.step]; rw [(buildContained_data key occ big o b).networks]; exact h
  | buildNetwork o => simp only [Builder.step]; rw [(buildNetwork_data key occ big o b).networks]; exact h

/-- The maps of a builder can be traversed. -/
theorem orders_exist (ops : List (Op Sh)) : ∃ o, ValidOrders o (runReg key occ big ops).1 := by
  classical
  have hn : {i | (runReg key occ big ops).1.networks i ≠ none}.Finite := by
    induction ops using List.reverseRecOn with
    | nil => simp [runReg, Builder.init]
    | append_singleton ops op ih => rw [runReg_snoc]; exact step_finite _ op ih
  have hd : {i | (runReg key occ big ops).1.subDomains i ≠ none}.Finite := by
    obtain ⟨-, c, -⟩ := C43_consistent key occ big ops
    refine ((runReg key occ big ops).2.domains.map (·.1)).finite_toSet.subset fun i hi => ?_
    obtain ⟨s, hs⟩ := Option.ne_none_iff_exists'.1 hi
    obtain ⟨d, hd⟩ := (c i s).1 hs
    exact List.mem_map.2 ⟨_, hd, rfl⟩
  refine ⟨⟨hd.toFinset.toList, hn.toFinset.toList, (hd.union hn).toFinset.toList, (hd.union hn).toFinset.toList⟩,
    ⟨⟨Finset.nodup_toList _, ?_⟩, ⟨Finset.nodup_toList _, ?_⟩, ⟨Finset.nodup_toList _, ?_⟩, ⟨Finset.nodup_toList _, ?_⟩⟩⟩ <;>
  intro i <;> simp

end

/-- The faces 5, 6 and the solids 10, 11, 12. -/
def sampleGeo (n : ℕ) : Outcome ℤ × Outcome (ℕ × Bool) := (.val (if n < 10 then 2 else 3), .val (n, true))

theorem keep_ok (eps : ℝ) : KernelOk keepOcc eps := ⟨fun _ _ => trivial, fun _ => trivial, fun _ => trivial⟩

theorem sample_faces : GivenAs sampleGeo 2 (fun n => (n, true)) [5, 6] := by
  intro e he
  simp only [List.mem_cons, List.not_mem_nil, or_false] at he
  rcases he with rfl | rfl <;> rfl

example : ∃ o, WritesNetwork Prod.fst keepOcc 1 cornerTopo (Appl.network1 sampleGeo [5] [6]) o 0 [(5, true), (6, true)] := by
  obtain ⟨-, H⟩ := C128_example1 (big := 1) (tableTopo_laws _ _ _ _ _ _) keep_ok sampleGeo (fun n => (n, true)) [5] [6]
    sample_faces (by simp)
  obtain ⟨o, ho⟩ := orders_exist (key := Prod.fst) (occ := keepOcc) (big := 1) (Appl.network1 sampleGeo [5] [6])
  exact ⟨o, H o ho⟩

example : ∃ o, WritesContained Prod.fst keepOcc 1 cornerTopo (Appl.network2 sampleGeo 10 [5] [6]) o 1
      [(5, true), (6, true)] ∧
    confinement Prod.fst keepOcc 1 (Appl.network2 sampleGeo 10 [5] [6]) o 1 = some (.val (10, true)) := by
  obtain ⟨-, H⟩ := C128_example2 (big := 1) (tableTopo_laws _ _ _ _ _ _) keep_ok sampleGeo (fun n => (n, true)) 10
    (10, true) rfl [5] [6] sample_faces (by simp)
  obtain ⟨o, ho⟩ := orders_exist (key := Prod.fst) (occ := keepOcc) (big := 1) (Appl.network2 sampleGeo 10 [5] [6])
  exact ⟨o, H o ho⟩

example : ∃ o, WritesContained Prod.fst keepOcc 1 cornerTopo (Appl.network4Calls sampleGeo 10 [5] [] [6]) o 1
      [(5, true), (6, true)] := by
  obtain ⟨-, H⟩ := C128_example4 (big := 1) (tableTopo_laws _ _ _ _ _ _) keep_ok sampleGeo (fun n => (n, true)) 10
    (10, true) rfl [5] [] [6] sample_faces (by simp)
  obtain ⟨o, ho⟩ := orders_exist (key := Prod.fst) (occ := keepOcc) (big := 1)
    (Appl.network4Calls sampleGeo 10 [5] [] [6])
  exact ⟨o, (H o ho).1⟩

example : Layers Prod.fst sampleGeo 10 11 12 (10, true) (11, true) (12, true) := ⟨rfl, rfl, rfl, by decide⟩

example : ∃ o o', WritesContained Prod.fst keepOcc 1 cornerTopo (Appl.network3b sampleGeo 10 11 12 [5, 6] o) o' 2
    [(5, true), (6, true)] := by
  obtain ⟨⟨-, H⟩, -⟩ := C128_example3 (big := 1) (tableTopo_laws _ _ _ _ _ _) keep_ok sampleGeo (fun n => (n, true)) 10 11 12
    (10, true) (11, true) (12, true) ⟨rfl, rfl, rfl, by decide⟩ [5, 6] sample_faces (by simp)
  obtain ⟨o, ho⟩ := orders_exist (key := Prod.fst) (occ := keepOcc) (big := 1) (Appl.network3a sampleGeo 10 11 12 [5, 6])
  obtain ⟨o', ho'⟩ := orders_exist (key := Prod.fst) (occ := keepOcc) (big := 1)
    (Appl.network3b sampleGeo 10 11 12 [5, 6] o)
  exact ⟨o, o', ((H o ho).2.2.2 o' ho').1⟩

end Props
