import Verif.Props.Export
import Verif.Props.Merge
import Verif.Props.GeoTags

/-!
# C118: from registered entities to physical groups
-/

namespace Props
open Verif Frackit Spec.Builder Spec.BRep Spec.Geo
open Frackit.Builder (Op ContainedNetwork)

section
variable {Sh K : Type} [DecidableEq Sh] [DecidableEq K] (key : Sh → K) (occ : Occ Sh) (big : ℝ)

/-- Origin of everything a contained network consists of, including the entries of its index maps. -/
theorem contained_spec (ops : List (Op Sh)) (o : Orders) (n : ContainedNetwork Sh)
    (hv : ValidOrders o (runReg key occ big ops).1)
    (hns : NoSharedShapes key occ (runReg key occ big ops).1
      (o.subDomains.filterMap (runReg key occ big ops).1.subDomains)
      (tolerance occ big o (runReg key occ big ops).1))
    (hdd : DistinctDomains key (runReg key occ big ops).1)
    (hn : (Builder.buildContained key occ big o (runReg key occ big ops).1).1 = .val n) :
    ∃ h l, occ.general l (tolerance occ big o (runReg key occ big ops).1) = .val h ∧
      (∀ i f, f ∈ (n.entityFragments i).getD [] ↔ ∃ s ∈ ((runReg key occ big ops).1.networks i).getD [], ∃ g,
        Confined occ (runReg key occ big ops).1
          (o.subDomains.filterMap (runReg key occ big ops).1.subDomains)
          (tolerance occ big o (runReg key occ big ops).1) i s g ∧ Piece h g f) ∧
      (∀ i, ∀ f ∈ (n.entityFragments i).getD [], ∃ p,
        DMap.find key ((n.indexMaps i).getD []) f = some (p + 1) ∧
        StemsFrom key occ (runReg key occ big ops).1
          (o.subDomains.filterMap (runReg key occ big ops).1.subDomains)
          (tolerance occ big o (runReg key occ big ops).1) h i p f) ∧
      (∀ i, ∀ x ∈ (n.indexMaps i).getD [], ∃ p, x.2 = p + 1 ∧
        StemsFrom key occ (runReg key occ big ops).1
          (o.subDomains.filterMap (runReg key occ big ops).1.subDomains)
          (tolerance occ big o (runReg key occ big ops).1) h i p x.1) ∧
      (∀ i f, f ∈ (n.subDomainFragments i).getD [] ↔
        ∃ sd, (runReg key occ big ops).1.subDomains i = some sd ∧ Piece h sd f) := by
  have hinv := runReg_inv key occ big ops
  generalize (runReg key occ big ops).1 = b at *
  unfold Builder.buildContained at hn
  cases hp : Builder.prepare key occ big o false b with
  | mk r b' =>
    rw [hp] at hn
    cases r with
    | thrown e => simp at hn
    | nan => simp at hn
    | ub => simp at hn
    | val u =>
      obtain ⟨h, a, f, d⟩ := prepare_spec key occ big hv hinv.bounds hp
      simp only at hn
      cases he : b'.entityDim with
      | none => rw [he] at hn; simp at hn
      | some e =>
        cases hd : b'.domainDim with
        | none => rw [he, hd] at hn; simp at hn
        | some dd =>
          rw [he, hd] at hn
          simp only [Outcome.val.injEq] at hn
          subst hn
          obtain ⟨l, hl, -⟩ := a
          refine ⟨h, l, hl, fun i => (f hns i).1, fun i => (f hns i).2.1, fun i => (f hns i).2.2, ?_⟩
          simpa using d hdd

/-- Origin of everything a network consists of, including the entries of its index map. -/
theorem network_spec (ops : List (Op Sh)) (o : Orders) (n : Builder.Network Sh)
    (hv : ValidOrders o (runReg key occ big ops).1)
    (hns : NoSharedShapes key occ (runReg key occ big ops).1
      (o.subDomains.filterMap (runReg key occ big ops).1.subDomains)
      (tolerance occ big o (runReg key occ big ops).1))
    (hn : (Builder.buildNetwork key occ big o (runReg key occ big ops).1).1 = .val n) :
    ∃ h l, ∃ maps : ℕ → Option (DMap Sh),
      occ.general l (tolerance occ big o (runReg key occ big ops).1) = .val h ∧
      (∀ f, f ∈ n.fragments ↔ ∃ i, ∃ s ∈ ((runReg key occ big ops).1.networks i).getD [], ∃ g,
        Confined occ (runReg key occ big ops).1
          (o.subDomains.filterMap (runReg key occ big ops).1.subDomains)
          (tolerance occ big o (runReg key occ big ops).1) i s g ∧ Piece h g f) ∧
      n.indexMap = Builder.mergeMaps key maps o.maps 0 [] ∧
      (∀ i f, (∃ s ∈ ((runReg key occ big ops).1.networks i).getD [], ∃ g,
        Confined occ (runReg key occ big ops).1
          (o.subDomains.filterMap (runReg key occ big ops).1.subDomains)
          (tolerance occ big o (runReg key occ big ops).1) i s g ∧ Piece h g f) → ∃ p,
        DMap.find key ((maps i).getD []) f = some (p + 1) ∧
        StemsFrom key occ (runReg key occ big ops).1
          (o.subDomains.filterMap (runReg key occ big ops).1.subDomains)
          (tolerance occ big o (runReg key occ big ops).1) h i p f) ∧
      (∀ i, ∀ x ∈ (maps i).getD [], ∃ p, x.2 = p + 1 ∧
        StemsFrom key occ (runReg key occ big ops).1
          (o.subDomains.filterMap (runReg key occ big ops).1.subDomains)
          (tolerance occ big o (runReg key occ big ops).1) h i p x.1) := by
  have hinv := runReg_inv key occ big ops
  generalize (runReg key occ big ops).1 = b at *
  unfold Builder.buildNetwork at hn
  cases hp : Builder.prepare key occ big o true b with
  | mk r b' =>
    rw [hp] at hn
    cases r with
    | thrown e => simp at hn
    | nan => simp at hn
    | ub => simp at hn
    | val u =>
      obtain ⟨h, a, f, -⟩ := prepare_spec key occ big hv hinv.bounds hp
      simp only at hn
      cases he : b'.entityDim with
      | none => rw [he] at hn; simp at hn
      | some e =>
        rw [he] at hn
        simp only [Outcome.val.injEq] at hn
        subst hn
        obtain ⟨l, hl, -⟩ := a
        refine ⟨h, l, b'.fragMaps, hl, fun x => ?_, rfl, fun i x hx => (f hns i).2.1 x (((f hns i).1 x).2 hx),
          fun i => (f hns i).2.2⟩
        simp only [List.mem_flatMap]
        constructor
        · rintro ⟨i, -, hx⟩
          exact ⟨i, ((f hns i).1 x).1 hx⟩
        · rintro ⟨i, hx⟩
          refine ⟨i, ?_, ((f hns i).1 x).2 hx⟩
          rw [hv.lists.2]
          right
          intro hnone
          rw [hnone] at hx
          simp at hx

theorem extentOf_empty (maps : ℕ → Option (DMap Sh)) (ids : List ℕ) (h : ∀ i ∈ ids, (maps i).getD [] = []) :
    extentOf maps ids = 0 := by
  unfold extentOf
  rw [List.sum_eq_zero]
  intro x hx
  obtain ⟨i, hi, rfl⟩ := List.mem_map.1 hx
  rw [h i hi]
  rfl

omit [DecidableEq Sh] in
/-- Binding keeps the keys of a map distinct. -/
theorem dataMap_bind {m : DMap Sh} (hm : IsDataMap key m) (s : Sh) (i : ℕ) : IsDataMap key (DMap.bind key m s i) := by
  unfold IsDataMap at *
  unfold DMap.bind
  split
  · rw [List.map_map]
    convert hm using 2
    funext p
    simp only [Function.comp]
    split <;> rfl
  · rename_i h
    rw [List.map_append, List.nodup_append]
    refine ⟨hm, by simp, ?_⟩
    intro a ha c hc
    simp only [List.map_cons, List.map_nil, List.mem_singleton] at hc
    subst hc
    rintro rfl
    obtain ⟨p, hp, e⟩ := List.mem_map.1 ha
    unfold DMap.find at h
    rw [Option.map_eq_none_iff, List.find?_eq_none] at h
    exact h p hp (by simpa using e)

omit [DecidableEq Sh] in
theorem dataMap_merge (maps : ℕ → Option (DMap Sh)) (ids : List ℕ) : ∀ off acc, IsDataMap key acc →
    IsDataMap key (Builder.mergeMaps key maps ids off acc) := by
  induction ids with
  | nil => intro off acc h; exact h
  | cons i t ih =>
    intro off acc h
    simp only [Builder.mergeMaps]
    refine ih _ _ ?_
    generalize (maps i).getD [] = m
    induction m generalizing acc with
    | nil => exact h
    | cons p m ihm => exact ihm _ (dataMap_bind key h _ _)

end

variable {Sh K : Type} [DecidableEq Sh] [DecidableEq K] (key : Sh → K) (occ : Occ Sh) (big : ℝ) (T : Topo Sh)

/-! ## C118 Physical groups tell the registered entities apart -/

/-- The item is in the physical group with the given tag. -/
def InGroup (cs : List Command) (kind : Kind) (tag i : ℕ) : Prop := ∃ l, Command.physical kind tag l ∈ cs ∧ i ∈ l

/-- The fragment `f` is a part of an entity registered for sub-domain `d`. -/
def EntityPart (b : Builder Sh) (o : Orders) (eps : ℝ) (h : Hist Sh) (d : ℕ) (f : Sh) : Prop :=
  ∃ s ∈ (b.networks d).getD [], ∃ g, Confined occ b (o.subDomains.filterMap b.subDomains) eps d s g ∧ Piece h g f

/-- The groups of a file, whose faces and solids are numbered as in the lists `fs` and `sos`, reflect what has
been registered: each part of an entity is in exactly one group of surfaces, members of such groups stem
from registered entities, each solid of a part of a sub-domain is in exactly one group of volumes, and the members of
the group of volumes with tag `t` are solids of parts of the sub-domain with id `t`. -/
structure GroupsReflect (b : Builder Sh) (o : Orders) (eps : ℝ) (h : Hist Sh) (fs sos : List Sh)
    (cs : List Command) : Prop where
  entities : ∀ d f, EntityPart occ b o eps h d f → f ∈ T.faces f →
    ∃ i x, At fs i x ∧ key x = key f ∧ ∃! tag, InGroup cs .surface tag i
  surfaces : ∀ tag i, InGroup cs .surface tag i →
    ∃ x d p, At fs i x ∧ StemsFrom key occ b (o.subDomains.filterMap b.subDomains) eps h d p x
  solids : ∀ d sd f, b.subDomains d = some sd → Piece h sd f → ∀ y ∈ T.solids f,
    ∃ i x, At sos i x ∧ key x = key y ∧ ∃! tag, InGroup cs .volume tag i
  volumes : ∀ tag i, InGroup cs .volume tag i →
    ∃ x sd f, At sos i x ∧ b.subDomains tag = some sd ∧ Piece h sd f ∧ x ∈ T.solids f

/-- Members of the same group of surfaces stem from a common entity. -/
def GroupsSeparate (b : Builder Sh) (o : Orders) (eps : ℝ) (h : Hist Sh) (fs : List Sh) (cs : List Command) : Prop :=
  ∀ tag i j, InGroup cs .surface tag i → InGroup cs .surface tag j → ∃ x y d p, At fs i x ∧ At fs j y ∧
    StemsFrom key occ b (o.subDomains.filterMap b.subDomains) eps h d p x ∧
    StemsFrom key occ b (o.subDomains.filterMap b.subDomains) eps h d p y

/-- All entities have been registered with the id `j`. -/
def OnlyNetwork (b : Builder Sh) (j : ℕ) : Prop := ∀ i, i ≠ j → (b.networks i).getD [] = []

/-- The group of surfaces with tag `k` consists of parts of the `k`-th entity (from 1) that has been registered with the
id `j`. -/
def GroupsByPosition (b : Builder Sh) (o : Orders) (eps : ℝ) (h : Hist Sh) (fs : List Sh) (cs : List Command) (j : ℕ) :
    Prop :=
  ∀ tag i, InGroup cs .surface tag i → ∃ x p, tag = p + 1 ∧ At fs i x ∧
    StemsFrom key occ b (o.subDomains.filterMap b.subDomains) eps h j p x

/-- Registrations for which each network has a sub-domain and no shape is registered for two sub-domains. -/
structure SoundRegistration (ops : List (Op Sh)) (o : Orders) : Prop where
  orders : ValidOrders o (runReg key occ big ops).1
  domains : DistinctDomains key (runReg key occ big ops).1
  networks : ∀ x ∈ (runReg key occ big ops).2.entities, ∃ y ∈ (runReg key occ big ops).2.domains, y.1 = x.1
  shapes : NoSharedShapes key occ (runReg key occ big ops).1
    (o.subDomains.filterMap (runReg key occ big ops).1.subDomains)
    (tolerance occ big o (runReg key occ big ops).1)

/-- The full claim. -/
def C118_full : Prop :=
  ∀ (Sh K : Type) [DecidableEq Sh] [DecidableEq K] (key : Sh → K) (occ : Occ Sh) (big : ℝ) (T : Topo Sh),
    Laws key T → ∀ (ops : List (Op Sh)) (o : Orders) (n : ContainedNetwork Sh) (ids : List ℕ),
    SoundRegistration key occ big ops o →
    (Builder.buildContained key occ big o (runReg key occ big ops).1).1 = .val n →
    n.entityDim = 2 → n.domainDim = 3 → Enumerates ids n.subDomainFragments →
    ∃ w, BRepWriter.ofContained key T ids n = .val w ∧
      ∀ (name : List Char) (h1 h2 : ℝ) (dOrd eOrd iOrd : List ℕ), (∀ c ∈ name, c ≠ '"') →
        IsTraversal w.domainToFragments dOrd → IsTraversal w.entityToFragments eOrd →
        IsTraversal w.intersectionsToFragments iOrd →
        ∃ h l vs es ws fs shs sos text cs,
          occ.general l (tolerance occ big o (runReg key occ big ops).1) = .val h ∧
          w.compound = vs ++ es ++ ws ++ fs ++ shs ++ sos ∧
          Complete key T (Spec.BRep.ofContained ids n) vs es ws fs shs sos ∧
          GmshWriter.text name h1 h2 dOrd eOrd iOrd w = .val text ∧ Spec.Geo.read text = some cs ∧
          GroupsReflect key occ T (runReg key occ big ops).1 o
            (tolerance occ big o (runReg key occ big ops).1) h fs sos cs ∧
          GroupsSeparate key occ (runReg key occ big ops).1 o
            (tolerance occ big o (runReg key occ big ops).1) h fs cs

/-- Groups reflect what has been registered, whatever the history; they separate the entities if every entity keeps
a fragment of its own (missing: entities that are lost by confinement or hidden by others, see `C118_disproof`). -/
theorem C118_groups_partial (laws : Laws key T) (ops : List (Op Sh)) (o : Orders) (n : ContainedNetwork Sh)
    (ids : List ℕ) (hs : SoundRegistration key occ big ops o)
    (hn : (Builder.buildContained key occ big o (runReg key occ big ops).1).1 = .val n)
    (he : n.entityDim = 2) (hd : n.domainDim = 3) (hi : Enumerates ids n.subDomainFragments) :
    ∃ w, BRepWriter.ofContained key T ids n = .val w ∧
      ∀ (name : List Char) (h1 h2 : ℝ) (dOrd eOrd iOrd : List ℕ), (∀ c ∈ name, c ≠ '"') →
        IsTraversal w.domainToFragments dOrd → IsTraversal w.entityToFragments eOrd →
        IsTraversal w.intersectionsToFragments iOrd →
        ∃ h l vs es ws fs shs sos text cs,
          occ.general l (tolerance occ big o (runReg key occ big ops).1) = .val h ∧
          w.compound = vs ++ es ++ ws ++ fs ++ shs ++ sos ∧
          Complete key T (Spec.BRep.ofContained ids n) vs es ws fs shs sos ∧
          GmshWriter.text name h1 h2 dOrd eOrd iOrd w = .val text ∧ Spec.Geo.read text = some cs ∧
          GroupsReflect key occ T (runReg key occ big ops).1 o
            (tolerance occ big o (runReg key occ big ops).1) h fs sos cs ∧
          (AllEntitiesKept key occ (runReg key occ big ops).1 o
              (tolerance occ big o (runReg key occ big ops).1) h →
            GroupsSeparate key occ (runReg key occ big ops).1 o
              (tolerance occ big o (runReg key occ big ops).1) h fs cs) ∧
          ∀ j, OnlyNetwork (runReg key occ big ops).1 j →
            GroupsByPosition key occ (runReg key occ big ops).1 o
              (tolerance occ big o (runReg key occ big ops).1) h fs cs j := by
  obtain ⟨w, hw, -, -⟩ := C111_exports_partial key occ big T laws ops o n ids hs.orders hs.domains hs.networks hs.shapes hn
    he hd hi
  obtain ⟨-, -, hbe⟩ := built_entries key occ big hn
  have hbe := hbe hs.domains hs.orders.subDomains
  obtain ⟨-, c2, c3⟩ := C43_consistent key occ big ops
  obtain ⟨h, l, hl, hfr, hidx, hent, hdom⟩ := contained_spec key occ big ops o n hs.orders hs.shapes hs.domains hn
  refine ⟨w, hw, fun name h1 h2 dOrd eOrd iOrd hq t1 t2 t3 => ?_⟩
  obtain ⟨vs, es, ws, fs, shs, sos, hcomp, hC, s1, s2, s3, s4⟩ := C47_contained key T laws ids n w hw
  obtain ⟨text, cs, htext, hread, g1, g2, -, -⟩ := C99_groups name hq h1 h2 w t1 t2 t3
  have hS : ∀ tag i, InGroup cs .surface tag i ↔ i ∈ w.entityToFragments tag := by
    intro tag i
    constructor
    · rintro ⟨l, hl, hil⟩
      rw [((g2 tag l).1 hl).2] at hil; exact hil
    · intro h
      exact ⟨_, (g2 tag _).2 ⟨List.ne_nil_of_mem h, rfl⟩, h⟩
  have hV : ∀ tag i, InGroup cs .volume tag i ↔ i ∈ w.domainToFragments tag := by
    intro tag i
    constructor
    · rintro ⟨l, hl, hil⟩
      rw [((g1 tag l).1 hl).2] at hil; exact hil
    · intro h
      exact ⟨_, (g1 tag _).2 ⟨List.ne_nil_of_mem h, rfl⟩, h⟩
  have hnet : ∀ d, (∃ s, s ∈ ((runReg key occ big ops).1.networks d).getD []) → d ∈ ids := by
    rintro d ⟨s, hsd⟩
    refine (hi.2 d).2 (hbe d ?_)
    rw [c3 d] at hsd
    obtain ⟨y, hy, -⟩ := List.mem_map.1 hsd
    obtain ⟨hy1, hy2⟩ := List.mem_filter.1 hy
    obtain ⟨⟨k, e, t⟩, hz, hzk⟩ := hs.networks y hy1
    have hyi : y.1 = d := by simpa using hy2
    have hki : k = d := by rw [← hyi]; exact hzk
    subst hki
    rw [(c2 k t).2 ⟨e, hz⟩]
    simp
  have hat : ∀ (m : List Sh) x, x ∈ m → ∃ i, At m i x := by
    intro m x hx
    obtain ⟨k, hk, e⟩ := List.mem_iff_getElem.1 hx
    exact ⟨k + 1, by omega, by rw [Nat.add_sub_cancel, List.getElem?_eq_getElem hk, e]⟩
  generalize (runReg key occ big ops).1 = b at *
  generalize tolerance occ big o b = eps at *
  have hown : ∀ tag i, i ∈ w.entityToFragments tag → ∃ x pre d post p, At fs i x ∧ ids = pre ++ d :: post ∧
      tag = (p + 1) + extentOf n.indexMaps pre ∧ p < ((b.networks d).getD []).length ∧
      StemsFrom key occ b (o.subDomains.filterMap b.subDomains) eps h d p x := by
    intro tag i hti
    obtain ⟨x, hx, pre, d, post, e1, v, ⟨y, hy, hk, rfl⟩, e2⟩ := (s1 tag).2 i hti
    obtain ⟨p, hp, s, s', g, g', f0, a1, a2, a3, a4, a5, a6, a7, a8⟩ := hent d y hy
    exact ⟨x, pre, d, post, p, hx, e1, by rw [e2, hp]; rfl, (List.getElem?_eq_some_iff.1 a1).1,
      s, s', g, g', f0, a1, a2, a3, a4, a5, a6, a7, a8.trans hk⟩
  refine ⟨h, l, vs, es, ws, fs, shs, sos, text, cs, hl, hcomp, hC, htext, hread, ⟨?_, ?_, ?_, ?_⟩, fun hkept => ?_,
    fun k hone => ?_⟩
  · intro d f hpart hface
    have hf := (hfr d f).2 hpart
    have hdi : d ∈ ids := hnet d ⟨_, hpart.choose_spec.1⟩
    obtain ⟨x, hx, hk⟩ := List.mem_map.1 ((hC.2.2.2.1.2 (key f)).2 ⟨f, Or.inr ⟨f, ⟨d, hdi, by
      cases hl : n.entityFragments d with
      | none => rw [hl] at hf; simp at hf
      | some l => rw [hl] at hf; exact ⟨l, rfl, hf⟩⟩, hface⟩, rfl⟩)
    obtain ⟨i, hix⟩ := hat fs x hx
    obtain ⟨p, hp, -⟩ := hidx d f hf
    obtain ⟨y, hy, hky, -⟩ := dfind_mem key hp
    obtain ⟨tag, ht, hu⟩ := s2 i x hix ⟨d, hdi, _, y, hy, hky.trans hk.symm, rfl⟩
    exact ⟨i, x, hix, hk, tag, (hS tag i).2 ht, fun t h => hu t ((hS t i).1 h)⟩
  · intro tag i hti
    obtain ⟨x, -, d, -, p, hx, -, -, -, hst⟩ := hown tag i ((hS tag i).1 hti)
    exact ⟨x, d, p, hx, hst⟩
  · intro d sd f hsd hp y hy
    have hf := (hdom d f).2 ⟨sd, hsd, hp⟩
    cases hl : n.subDomainFragments d with
    | none => rw [hl] at hf; simp at hf
    | some l =>
      rw [hl] at hf
      have hid : d ∈ ids := (hi.2 d).2 (by rw [hl]; simp)
      obtain ⟨x, hx, e⟩ := List.mem_map.1 ((hC.2.2.2.2.2.2 (key y)).2 ⟨y, ⟨d, f, ⟨hid, l, hl, hf⟩, hy⟩, rfl⟩)
      obtain ⟨i, hix⟩ := hat sos x hx
      obtain ⟨tag, ht, hu⟩ := s4 i x hix
      exact ⟨i, x, hix, e, tag, (hV tag i).2 ht, fun t h => hu t ((hV t i).1 h)⟩
  · intro tag i hti
    obtain ⟨x, hx, f, ⟨-, l, hl, hfl⟩, hxf⟩ := (s3 tag).2 i ((hV tag i).1 hti)
    obtain ⟨sd, hsd, hp⟩ := (hdom tag f).1 (by rw [hl]; exact hfl)
    exact ⟨x, sd, f, hx, hsd, hp, hxf⟩
  · intro tag i j hti htj
    have hext : ∀ i, ((b.networks i).getD []).length ≤ ((n.indexMaps i).getD []).length := by
      intro i
      have hsub : List.range' 1 ((b.networks i).getD []).length ⊆ ((n.indexMaps i).getD []).map (·.2) := by
        intro k hk
        rw [List.mem_range'_1] at hk
        obtain ⟨fr, hfr', hq⟩ := hkept i (k - 1) (by omega)
        obtain ⟨p, hp', hst⟩ := hidx i fr ((hfr i fr).2 hfr')
        obtain ⟨y, hy, _, hy2⟩ := dfind_mem key hp'
        have := hq p hst
        exact List.mem_map.2 ⟨y, hy, by omega⟩
      have := ((List.nodup_range' (s := 1) (n := ((b.networks i).getD []).length)).subperm hsub).length_le
      simpa using this
    obtain ⟨x, pre, d, post, p, hx, e1, e2, e3, e4⟩ := hown tag i ((hS tag i).1 hti)
    obtain ⟨y, pre', d', post', p', hy, e1', e2', e3', e4'⟩ := hown tag j ((hS tag j).1 htj)
    obtain ⟨rfl, hpp⟩ := owner_unique n.indexMaps (e1.symm.trans e1') (v := p + 1) (v' := p' + 1)
      ⟨by omega, by have := hext d; omega⟩ ⟨by omega, by have := hext d'; omega⟩ (by omega)
    have : p = p' := by omega
    subst this
    exact ⟨x, y, d, p, hx, hy, e4, e4'⟩
  · intro tag i hti
    obtain ⟨x, pre, d, post, p, hx, e1, e2, e3, e4⟩ := hown tag i ((hS tag i).1 hti)
    have hempty : ∀ i, i ≠ k → (n.indexMaps i).getD [] = [] := by
      intro i hik
      rw [List.eq_nil_iff_forall_not_mem]
      intro y hy
      obtain ⟨q, -, s, _, _, _, _, hq, _⟩ := hent i y hy
      rw [hone i hik] at hq
      simp at hq
    have hdk : d = k := by
      by_contra hne
      rw [hone d hne] at e3
      simp at e3
    subst hdk
    have hpre : d ∉ pre := by
      have := hi.1
      rw [e1, List.nodup_append] at this
      exact fun hd => this.2.2 d hd d (by simp) rfl
    rw [extentOf_empty n.indexMaps pre fun i hi => hempty i fun e => hpre (e ▸ hi)] at e2
    exact ⟨x, p, by omega, hx, e4⟩

/-- Networks without sub-domains: each part of an entity is in exactly one group of surfaces, the members of groups stem
from registered entities, there are no groups of volumes, and members of the same group stem from a common
entity if every entity keeps a fragment of its own (missing: entities that are lost or hidden, see `C45_disproof`). -/
theorem C118_network_partial (laws : Laws key T) (ops : List (Op Sh)) (o : Orders) (n : Builder.Network Sh)
    (hv : ValidOrders o (runReg key occ big ops).1)
    (hns : NoSharedShapes key occ (runReg key occ big ops).1
      (o.subDomains.filterMap (runReg key occ big ops).1.subDomains)
      (tolerance occ big o (runReg key occ big ops).1))
    (hn : (Builder.buildNetwork key occ big o (runReg key occ big ops).1).1 = .val n) (he : n.entityDim = 2) :
    ∃ w, BRepWriter.ofNetwork key T n = .val w ∧
      ∀ (name : List Char) (h1 h2 : ℝ) (dOrd eOrd iOrd : List ℕ), (∀ c ∈ name, c ≠ '"') →
        IsTraversal w.domainToFragments dOrd → IsTraversal w.entityToFragments eOrd →
        IsTraversal w.intersectionsToFragments iOrd →
        ∃ h l vs es ws fs text cs,
          occ.general l (tolerance occ big o (runReg key occ big ops).1) = .val h ∧
          w.compound = vs ++ es ++ ws ++ fs ∧
          Complete key T (Spec.BRep.ofNetwork n) vs es ws fs [] [] ∧
          GmshWriter.text name h1 h2 dOrd eOrd iOrd w = .val text ∧ Spec.Geo.read text = some cs ∧
          (∀ d f, EntityPart occ (runReg key occ big ops).1 o (tolerance occ big o (runReg key occ big ops).1) h d f →
            f ∈ T.faces f → ∃ i x, At fs i x ∧ key x = key f ∧ ∃! tag, InGroup cs .surface tag i) ∧
          (∀ tag i, InGroup cs .surface tag i → ∃ x d p, At fs i x ∧
            StemsFrom key occ (runReg key occ big ops).1
              (o.subDomains.filterMap (runReg key occ big ops).1.subDomains)
              (tolerance occ big o (runReg key occ big ops).1) h d p x) ∧
          (∀ tag i, ¬ InGroup cs .volume tag i) ∧
          (AllEntitiesKept key occ (runReg key occ big ops).1 o
              (tolerance occ big o (runReg key occ big ops).1) h →
            GroupsSeparate key occ (runReg key occ big ops).1 o
              (tolerance occ big o (runReg key occ big ops).1) h fs cs) ∧
          ∀ j, OnlyNetwork (runReg key occ big ops).1 j →
            GroupsByPosition key occ (runReg key occ big ops).1 o
              (tolerance occ big o (runReg key occ big ops).1) h fs cs j := by
  obtain ⟨h, l, maps, hl, hfr, hmap, hidx, hent⟩ := network_spec key occ big ops o n hv hns hn
  have hdata : IsDataMap key n.indexMap := by
    rw [hmap]; exact dataMap_merge key maps _ _ _ (by simp [IsDataMap])
  obtain ⟨w, hw⟩ : ∃ w, BRepWriter.ofNetwork key T n = .val w := by
    unfold BRepWriter.ofNetwork
    rw [if_neg (by simpa using he)]
    exact ⟨_, rfl⟩
  refine ⟨w, hw, fun name h1 h2 dOrd eOrd iOrd hq t1 t2 t3 => ?_⟩
  obtain ⟨vs, es, ws, fs, hcomp, hC, s1, s2, s3⟩ := C47_network key T laws n hdata w hw
  obtain ⟨text, cs, htext, hread, g1, g2, -, -⟩ := C99_groups name hq h1 h2 w t1 t2 t3
  have hS : ∀ tag i, InGroup cs .surface tag i ↔ i ∈ w.entityToFragments tag := by
    intro tag i
    constructor
    · rintro ⟨l, hl, hil⟩
      rw [((g2 tag l).1 hl).2] at hil; exact hil
    · intro h
      exact ⟨_, (g2 tag _).2 ⟨List.ne_nil_of_mem h, rfl⟩, h⟩
  have hat : ∀ (m : List Sh) x, x ∈ m → ∃ i, At m i x := by
    intro m x hx
    obtain ⟨k, hk, e⟩ := List.mem_iff_getElem.1 hx
    exact ⟨k + 1, by omega, by rw [Nat.add_sub_cancel, List.getElem?_eq_getElem hk, e]⟩
  obtain ⟨m1, m2⟩ := mergeMaps_spec key maps o.maps 0 []
  rw [← hmap] at m1 m2
  have hvm := hv.maps.2
  generalize (runReg key occ big ops).1 = b at *
  generalize tolerance occ big o b = eps at *
  have hown : ∀ tag i, i ∈ w.entityToFragments tag → ∃ x pre d post p, At fs i x ∧ o.maps = pre ++ d :: post ∧
      tag = (p + 1) + extentOf maps pre ∧ p < ((b.networks d).getD []).length ∧
      StemsFrom key occ b (o.subDomains.filterMap b.subDomains) eps h d p x := by
    intro tag i hti
    obtain ⟨x, hx, q, hq, hqk, rfl⟩ := (s1 tag).2 i hti
    rcases m1 q hq with hh | ⟨pre, d, post, e1, y, hy, hk, e2⟩
    · simp at hh
    obtain ⟨p, hp, s, s', g, g', f0, a1, a2, a3, a4, a5, a6, a7, a8⟩ := hent d y hy
    exact ⟨x, pre, d, post, p, hx, e1, by rw [e2, hp]; omega, (List.getElem?_eq_some_iff.1 a1).1,
      s, s', g, g', f0, a1, a2, a3, a4, a5, a6, a7, a8.trans (hk.trans hqk)⟩
  refine ⟨h, l, vs, es, ws, fs, text, cs, hl, hcomp, hC, htext, hread, ?_, ?_, ?_, fun hkept => ?_, fun k hone => ?_⟩
  · intro d f hpart hface
    obtain ⟨x, hx, hk⟩ := List.mem_map.1 ((hC.2.2.2.1.2 (key f)).2 ⟨f, Or.inr ⟨f, (hfr f).2 ⟨d, hpart⟩, hface⟩, rfl⟩)
    obtain ⟨i, hix⟩ := hat fs x hx
    obtain ⟨p, hp, -⟩ := hidx d f hpart
    obtain ⟨y, hy, hky, -⟩ := dfind_mem key hp
    have hdm : d ∈ o.maps := by
      rw [hvm]
      right
      intro hnone
      obtain ⟨s, hs, -⟩ := hpart
      rw [hnone] at hs
      simp at hs
    obtain ⟨e, he⟩ := Option.isSome_iff_exists.1 (m2 f (Or.inr ⟨d, hdm, y, hy, hky⟩))
    obtain ⟨z, hz, hkz, rfl⟩ := dfind_mem key he
    have hu := s2 i x z.2 hix ⟨z, hz, hkz.trans hk.symm, rfl⟩
    exact ⟨i, x, hix, hk, z.2, (hS _ i).2 ((hu _).2 rfl), fun t h => (hu t).1 ((hS t i).1 h)⟩
  · intro tag i hti
    obtain ⟨x, -, d, -, p, hx, -, -, -, hst⟩ := hown tag i ((hS tag i).1 hti)
    exact ⟨x, d, p, hx, hst⟩
  · rintro tag i ⟨l, hl, hil⟩
    rw [((g1 tag l).1 hl).2, s3] at hil
    simp at hil
  · intro tag i j hti htj
    have hext : ∀ i, ((b.networks i).getD []).length ≤ ((maps i).getD []).length := by
      intro i
      have hsub : List.range' 1 ((b.networks i).getD []).length ⊆ ((maps i).getD []).map (·.2) := by
        intro k hk
        rw [List.mem_range'_1] at hk
        obtain ⟨fr, hfr', hq⟩ := hkept i (k - 1) (by omega)
        obtain ⟨p, hp', hst⟩ := hidx i fr hfr'
        obtain ⟨y, hy, _, hy2⟩ := dfind_mem key hp'
        have := hq p hst
        exact List.mem_map.2 ⟨y, hy, by omega⟩
      have := ((List.nodup_range' (s := 1) (n := ((b.networks i).getD []).length)).subperm hsub).length_le
      simpa using this
    obtain ⟨x, pre, d, post, p, hx, e1, e2, e3, e4⟩ := hown tag i ((hS tag i).1 hti)
    obtain ⟨y, pre', d', post', p', hy, e1', e2', e3', e4'⟩ := hown tag j ((hS tag j).1 htj)
    obtain ⟨rfl, hpp⟩ := owner_unique maps (e1.symm.trans e1') (v := p + 1) (v' := p' + 1)
      ⟨by omega, by have := hext d; omega⟩ ⟨by omega, by have := hext d'; omega⟩ (by omega)
    have : p = p' := by omega
    subst this
    exact ⟨x, y, d, p, hx, hy, e4, e4'⟩
  · intro tag i hti
    obtain ⟨x, pre, d, post, p, hx, e1, e2, e3, e4⟩ := hown tag i ((hS tag i).1 hti)
    have hempty : ∀ i, i ≠ k → (maps i).getD [] = [] := by
      intro i hik
      rw [List.eq_nil_iff_forall_not_mem]
      intro y hy
      obtain ⟨q, -, s, _, _, _, _, hq, _⟩ := hent i y hy
      rw [hone i hik] at hq
      simp at hq
    have hdk : d = k := by
      by_contra hne
      rw [hone d hne] at e3
      simp at e3
    subst hdk
    have hpre : d ∉ pre := by
      have := hv.maps.1
      rw [e1, List.nodup_append] at this
      exact fun hd => this.2.2 d hd d (by simp) rfl
    rw [extentOf_empty maps pre fun i hi => hempty i fun e => hpre (e ▸ hi)] at e2
    exact ⟨x, p, by omega, hx, e4⟩

/-! ### Two entities in one group -/

/-- The shapes `1` to `6` are faces, `10` and `20` are solids. -/
def loseTopo : Topo ℕ where
  solids s := if s = 10 ∨ s = 20 then [s] else []
  shells _ := []
  faces s := if 1 ≤ s ∧ s ≤ 6 then [s] else []
  wires _ := []
  edges _ := []
  vertices _ := []
  forward s := s

theorem loseTopo_laws : Laws id loseTopo :=
  ⟨fun _ => rfl, fun _ _ s t h x hx => ⟨x, by cases h; exact hx, rfl⟩⟩

theorem lose_sound : SoundRegistration id loseOcc 1 loseOps twoOrders := by
  refine ⟨by rw [lose_run]; exact lose_orders, ?_, ?_, ?_⟩
  · rw [lose_run]
    intro i j s t hs ht h
    simp only [id] at h
    subst h
    simp only [loseState] at hs ht
    split at hs <;> split at ht <;> grind
  · obtain ⟨c1, c2, c3⟩ := C43_consistent id loseOcc 1 loseOps
    rw [lose_run] at c2 c3
    intro x hx
    have : x.2.2 ∈ ((loseState.networks x.1).getD []) := by
      rw [c3 x.1]
      exact List.mem_map.2 ⟨x, List.mem_filter.2 ⟨hx, by simp⟩, rfl⟩
    rw [lose_nets] at this
    have : x.1 = 0 ∨ x.1 = 1 := by
      by_contra hne
      push Not at hne
      simp [hne.1, hne.2] at this
    rcases this with e | e
    · obtain ⟨d, hd⟩ := (c2 0 10).1 rfl
      exact ⟨_, hd, e.symm⟩
    · obtain ⟨d, hd⟩ := (c2 1 20).1 rfl
      exact ⟨_, hd, e.symm⟩
  · rw [lose_run]
    intro i j hij s hs t ht g g' hc hc'
    rw [lose_confined hs hc, lose_confined ht hc']
    rw [lose_nets] at hs ht
    by_cases h0 : i = 0
    · have hj0 : j ≠ 0 := fun e => hij (h0.trans e.symm)
      rw [if_pos h0] at hs
      rw [if_neg hj0] at ht
      split at ht
      · simp at hs ht; simp only [id]; omega
      · cases ht
    · rw [if_neg h0] at hs
      by_cases h1 : i = 1
      · rw [if_pos h1] at hs
        have hj1 : j ≠ 1 := fun e => hij (h1.trans e.symm)
        rw [if_neg hj1] at ht
        split at ht
        · simp at hs ht; simp only [id]; omega
        · cases ht
      · rw [if_neg h1] at hs; cases hs

/-- What is exported: the faces `3` and `4` of different sub-domains, with indices 2 and 3, get the tag 3. -/
theorem lose_writer : ∃ n w, (Builder.buildContained id loseOcc 1 twoOrders loseState).1 = .val n ∧
    n.entityDim = 2 ∧ n.domainDim = 3 ∧ Enumerates [0, 1] n.subDomainFragments ∧
    BRepWriter.ofContained id loseTopo [0, 1] n = .val w ∧ w.compound = [1, 3, 4, 6, 10, 20] ∧
    (∀ k, w.domainToFragments k = if k = 0 then [1] else if k = 1 then [2] else []) ∧
    (∀ k, w.entityToFragments k = if k = 1 then [1] else if k = 3 then [2, 3] else if k = 5 then [4] else []) ∧
    ∀ k, w.intersectionsToFragments k = [] := by
  refine ⟨_, _, rfl, rfl, rfl, ⟨by simp, fun i => ?_⟩, rfl, rfl, fun k => ?_, fun k => ?_, fun k => ?_⟩
  · match i with
    | 0 => exact ⟨fun _ => Option.some_ne_none [10], fun _ => by simp⟩
    | 1 => exact ⟨fun _ => Option.some_ne_none [20], fun _ => by simp⟩
    | i + 2 => exact ⟨fun h => by simp at h, fun h => absurd rfl h⟩
  · match k with
    | 0 => rfl
    | 1 => rfl
    | k + 2 => rfl
  · match k with
    | 0 => rfl
    | 1 => rfl
    | 2 => rfl
    | 3 => rfl
    | 4 => rfl
    | 5 => rfl
    | k + 6 => rfl
  · match k with
    | 0 => rfl
    | k + 1 => rfl

theorem C118_disproof : ¬ C118_full := by
  intro H
  obtain ⟨n, w, hn, he, hd, hi, hw, hcomp, td, te, ti⟩ := lose_writer
  obtain ⟨w', hw', H⟩ := H ℕ ℕ id loseOcc 1 loseTopo loseTopo_laws loseOps twoOrders n [0, 1] lose_sound
    (by rw [lose_run]; exact hn) he hd hi
  rw [hw] at hw'
  simp only [Outcome.val.injEq] at hw'
  subst hw'
  have t1 : IsTraversal w.domainToFragments [0, 1] := ⟨by decide, fun k => by rw [td]; grind⟩
  have t2 : IsTraversal w.entityToFragments [1, 3, 5] := ⟨by decide, fun k => by rw [te]; grind⟩
  have t3 : IsTraversal w.intersectionsToFragments [] := ⟨by decide, fun k => by rw [ti]; simp⟩
  obtain ⟨h, l, vs, es, ws, fs, shs, sos, text, cs, hl, hc, hC, htext, hread, -, hsep⟩ :=
    H "network".toList 1 1 _ _ _ (by decide) t1 t2 t3
  obtain ⟨text', cs', htext', hread', -, g2, -⟩ := C99_groups "network".toList (by decide) 1 1 w t1 t2 t3
  rw [htext] at htext'
  simp only [Outcome.val.injEq] at htext'
  subst htext'
  rw [hread] at hread'
  simp only [Option.some.injEq] at hread'
  subst hread'
  have hg : ∀ i ∈ [2, 3], InGroup cs .surface 3 i := fun i hi =>
    ⟨_, (g2 3 [2, 3]).2 ⟨by simp, by rw [te]; rfl⟩, hi⟩
  rw [lose_run] at hl hsep
  obtain ⟨x, y, d, p, hx, hy, sx, sy⟩ := hsep 3 2 3 (hg 2 (by simp)) (hg 3 (by simp))
  have nil : ∀ (m : List ℕ) (P : ℕ → Prop), ListsOnce id P m → (∀ x, ¬ P x) → m = [] := by
    intro m P hm hP
    rw [List.eq_nil_iff_forall_not_mem]
    intro x hx
    obtain ⟨z, hz, -⟩ := (hm.2 x).1 (by simpa using hx)
    exact hP z hz
  obtain ⟨c1, c2, c3, -, -, -⟩ := hC
  have ev := nil _ _ c1 (by rintro x ⟨s, -, hs⟩; simp [loseTopo] at hs)
  have ee := nil _ _ c2 (by rintro x ⟨s, -, hs⟩; simp [loseTopo] at hs)
  have ew := nil _ _ c3 (by rintro x ⟨s, -, hs⟩; simp [loseTopo] at hs)
  subst ev ee ew
  rw [hcomp] at hc
  have at_compound : ∀ i x, At fs i x → [1, 3, 4, 6, 10, 20][i - 1]? = some x := by
    rintro i x ⟨-, hx⟩
    rw [hc]
    simp only [List.nil_append, List.append_assoc]
    rw [List.getElem?_append_left (List.getElem?_eq_some_iff.1 hx).1]
    exact hx
  have ex := at_compound 2 x hx
  have ey := at_compound 3 y hy
  simp at ex ey
  subst ex ey
  simp only [loseOcc, Outcome.val.injEq] at hl
  subst hl
  have hval : ∀ x, StemsFrom id loseOcc loseState (twoOrders.subDomains.filterMap loseState.subDomains)
      (tolerance loseOcc 1 twoOrders loseState) ⟨fun _ => false, fun _ => [], fun _ => []⟩ d p x →
      x ∈ (loseState.networks d).getD [] := by
    rintro x ⟨s, s', g, g', f', a1, a2, a3, a4, a5, ⟨t, ht, hct⟩, a7, a8⟩
    have e1 : g' = t := lose_confined ht hct
    have e2 : f' = g' := by
      rcases a7 with ⟨_, _, _, e⟩ | e | e
      · exact e
      · simp at e
      · simp at e
    simp only [id] at a8
    rw [← a8, e2, e1]
    exact ht
  have m3 := hval 3 sx
  have m4 := hval 4 sy
  rw [lose_nets] at m3 m4
  by_cases h0 : d = 0
  · rw [if_pos h0] at m4; simp at m4
  · rw [if_neg h0] at m3
    split at m3
    · simp at m3
    · cases m3

/-! ### Non-trivial instance -/

theorem solidAndFace_sound : SoundRegistration Prod.fst keepOcc 1 (solidAndFaceOps 1) (solidAndFaceOrders 1) := by
  have hr := solidAndFace_run 1
  refine ⟨by rw [hr]; exact solidAndFace_orders 1, ?_, by rw [hr]; simp, ?_⟩
  · rw [hr]
    intro i j s t hs ht _
    by_cases h0 : i = 1
    · by_cases h1 : j = 1
      · rw [h0, h1]
      · simp [solidAndFace, h1] at ht
    · simp [solidAndFace, h0] at hs
  · rw [hr]
    intro i j hij s hs t ht
    by_cases h0 : i = 1
    · have h1 : j ≠ 1 := fun e => hij (h0.trans e.symm)
      simp [solidAndFace, h1] at ht
    · simp [solidAndFace, h0] at hs

theorem solidAndFace_kept (eps : ℝ) : AllEntitiesKept Prod.fst keepOcc (solidAndFace 1) (solidAndFaceOrders 1) eps
    ⟨fun _ => false, fun _ => [], fun _ => []⟩ := by
  intro i p hp
  by_cases h : i = 1
  · subst h
    have hp0 : p = 0 := by simpa [solidAndFace] using hp
    subst hp0
    refine ⟨(5, true), ⟨(5, true), by simp [solidAndFace], (5, true), ?_, Or.inl ⟨rfl, rfl, rfl, rfl⟩⟩, fun q hq => ?_⟩
    · simp [Confined, confinesTo, solidAndFace, keepOcc, Piece]
    · obtain ⟨s, _, _, _, _, hs, _⟩ := hq
      have := (List.getElem?_eq_some_iff.1 hs).1
      simpa [solidAndFace] using this
  · simp [solidAndFace, h] at hp

/-- The face in a volume meets all hypotheses of `C118_groups_partial`; it is in a physical surface, the volume in the
physical volume with its id. -/
example : ∃ n w text cs, (Builder.buildContained Prod.fst keepOcc 1 (solidAndFaceOrders 1)
      (runReg Prod.fst keepOcc 1 (solidAndFaceOps 1)).1).1 = .val n ∧
    BRepWriter.ofContained Prod.fst cornerTopo [1] n = .val w ∧
    GmshWriter.text "network".toList 1 1 [1] [1] [] w = .val text ∧ Spec.Geo.read text = some cs ∧
    (∃ i tag, InGroup cs .surface tag i) ∧ (∃ i, InGroup cs .volume 1 i) ∧
    ∃ fs, GroupsSeparate Prod.fst keepOcc (runReg Prod.fst keepOcc 1 (solidAndFaceOps 1)).1 (solidAndFaceOrders 1)
      (tolerance keepOcc 1 (solidAndFaceOrders 1) (runReg Prod.fst keepOcc 1 (solidAndFaceOps 1)).1)
      ⟨fun _ => false, fun _ => [], fun _ => []⟩ fs cs := by
  have hr := solidAndFace_run 1
  have hb : ∃ n w, (Builder.buildContained Prod.fst keepOcc 1 (solidAndFaceOrders 1) (solidAndFace 1)).1 =
      .val n ∧ n.entityDim = 2 ∧ n.domainDim = 3 ∧ Enumerates [1] n.subDomainFragments ∧
      BRepWriter.ofContained Prod.fst cornerTopo [1] n = .val w ∧
      (∀ k, w.domainToFragments k = if k = 1 then [1] else []) ∧
      (∀ k, w.entityToFragments k = if k = 1 then [2] else []) ∧ ∀ k, w.intersectionsToFragments k = [] := by
    refine ⟨_, _, rfl, rfl, rfl, ⟨by simp, fun i => ?_⟩, rfl, fun k => ?_, fun k => ?_, fun k => ?_⟩
    · match i with
      | 0 => exact ⟨fun h => by simp at h, fun h => absurd rfl h⟩
      | 1 => exact ⟨fun _ => Option.some_ne_none [((1 : ℕ), true)], fun _ => by simp⟩
      | i + 2 => exact ⟨fun h => by simp at h, fun h => absurd rfl h⟩
    · match k with
      | 0 => rfl
      | 1 => rfl
      | k + 2 => rfl
    · match k with
      | 0 => rfl
      | 1 => rfl
      | k + 2 => rfl
    · match k with
      | 0 => rfl
      | k + 1 => rfl
  obtain ⟨n, w, hn, he, hd, hi, hw, td, te, ti⟩ := hb
  obtain ⟨w', hw', H⟩ := C118_groups_partial Prod.fst keepOcc 1 cornerTopo (tableTopo_laws _ _ _ _ _ _)
    (solidAndFaceOps 1) (solidAndFaceOrders 1) n [1] solidAndFace_sound (by rw [hr]; exact hn) he hd hi
  rw [hw] at hw'
  simp only [Outcome.val.injEq] at hw'
  subst hw'
  have t1 : IsTraversal w.domainToFragments [1] := ⟨by decide, fun k => by rw [td]; simp⟩
  have t2 : IsTraversal w.entityToFragments [1] := ⟨by decide, fun k => by rw [te]; simp⟩
  have t3 : IsTraversal w.intersectionsToFragments [] := ⟨by decide, fun k => by rw [ti]; simp⟩
  obtain ⟨h, l, vs, es, ws, fs, shs, sos, text, cs, hl, hc, -, htext, hread, hrefl, hsep⟩ :=
    H "network".toList 1 1 _ _ _ (by decide) t1 t2 t3
  rw [hr] at hl hrefl hsep ⊢
  simp only [keepOcc, Outcome.val.injEq] at hl
  subst hl
  obtain ⟨i, x, -, -, tag, htag, -⟩ := hrefl.entities 1 (5, true)
    ⟨(5, true), by simp [solidAndFace], (5, true), by
      simp [Confined, confinesTo, solidAndFace, keepOcc, Piece], Or.inl ⟨rfl, rfl, rfl, rfl⟩⟩ (by decide)
  obtain ⟨j, y, -, -, t, ht, -⟩ := hrefl.solids 1 (1, true) (1, true) rfl (Or.inl ⟨rfl, rfl, rfl, rfl⟩) (1, true)
    (by decide)
  obtain ⟨-, sd, -, -, hsd, -, -⟩ := hrefl.volumes t j ht
  have ht1 : t = 1 := by
    by_contra hne
    simp [solidAndFace, hne] at hsd
  subst ht1
  exact ⟨n, w, text, cs, hn, hw, htext, hread, ⟨i, tag, htag⟩, ⟨j, ht⟩, fs, hsep.1 (solidAndFace_kept _)⟩

/-- The same registrations meet the hypotheses of `C118_network_partial`, and the face is in one of the groups. -/
example : ∃ n w, (Builder.buildNetwork Prod.fst keepOcc 1 (solidAndFaceOrders 1)
      (runReg Prod.fst keepOcc 1 (solidAndFaceOps 1)).1).1 = .val n ∧ n.entityDim = 2 ∧ n.fragments = [(5, true)] ∧
    BRepWriter.ofNetwork Prod.fst cornerTopo n = .val w ∧ IsTraversal w.domainToFragments [] ∧
    IsTraversal w.entityToFragments [1] ∧ IsTraversal w.intersectionsToFragments [] ∧ w.entityToFragments 1 = [1] := by
  rw [solidAndFace_run 1]
  refine ⟨_, _, rfl, rfl, rfl, rfl, ⟨by decide, fun k => ?_⟩, ⟨by decide, fun k => ?_⟩, ⟨by decide, fun k => ?_⟩, rfl⟩
  · exact ⟨fun h => by simp at h, fun h => absurd rfl h⟩
  · match k with
    | 0 => exact ⟨fun h => by simp at h, fun h => absurd rfl h⟩
    | 1 => exact ⟨fun _ => List.cons_ne_nil 1 [], fun _ => by simp⟩
    | k + 2 => exact ⟨fun h => by simp at h, fun h => absurd rfl h⟩
  · match k with
    | 0 => exact ⟨fun h => by simp at h, fun h => absurd rfl h⟩
    | k + 1 => exact ⟨fun h => by simp at h, fun h => absurd rfl h⟩

end Props
