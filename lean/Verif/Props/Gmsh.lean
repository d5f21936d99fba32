import Verif.Props.Intersections
import Mathlib.Data.List.Nodup

/-!
# Gmsh files: C49
-/

namespace Props
open Verif Frackit Spec.BRep
open Frackit.Builder (Network ContainedNetwork)

/-- The order in which a map of index lists is traversed: each of its keys once. -/
def IsTraversal (m : ℕ → List ℕ) (order : List ℕ) : Prop := order.Nodup ∧ ∀ k, k ∈ order ↔ m k ≠ []

/-- The group defined by a statement. -/
def groupOf : GeoStatement → Option (GeoKind × ℕ)
  | .physical kind id _ => some (kind, id)
  | .meshSize _ _ _ => none

/-- The file defines the group with exactly the given items, and no other group of that kind and id. -/
def Defines (file : List GeoStatement) (kind : GeoKind) (id : ℕ) (items : List ℕ) : Prop :=
  GeoStatement.physical kind id items ∈ file

theorem groups_val (kind : GeoKind) (size : Option Bool) (m : ℕ → List ℕ) (order : List ℕ)
    (h : ∀ k ∈ order, m k ≠ []) :
    ∃ l, GmshWriter.groups kind size m order = .val l ∧
      l.filterMap groupOf = order.map (fun k => (kind, k)) ∧
      (∀ kd id items, GeoStatement.physical kd id items ∈ l ↔ kd = kind ∧ id ∈ order ∧ items = m id) ∧
      (∀ kd items b, GeoStatement.meshSize kd items b ∈ l ↔
        kd = kind ∧ size = some b ∧ ∃ id ∈ order, items = m id) := by
  induction order with
  | nil => exact ⟨[], rfl, rfl, by simp, by simp⟩
  | cons k t ih =>
    obtain ⟨l, h1, h2, h3, h4⟩ := ih (fun k hk => h k (List.mem_cons_of_mem _ hk))
    have hk : GmshWriter.items (m k) = .val (m k) := by
      have := h k (by simp)
      cases hm : m k with
      | nil => exact absurd hm this
      | cons a t => rfl
    refine ⟨GeoStatement.physical kind k (m k) ::
      ((match (generalizing := false) size with | none => [] | some b => [GeoStatement.meshSize kind (m k) b]) ++ l), ?_, ?_, ?_, ?_⟩
    · simp only [GmshWriter.groups]
      rw [hk, Outcome.val_bind, h1, Outcome.val_bind]
      rfl
    · cases size with
      | none => simp [groupOf, h2]
      | some b => simp [List.filterMap_cons, groupOf, h2]
    · intro kd id items
      cases size with
      | none =>
        simp only [List.nil_append, List.mem_cons, GeoStatement.physical.injEq, h3]
        grind
      | some b =>
        simp only [List.cons_append, List.nil_append, List.mem_cons, GeoStatement.physical.injEq, h3,
          reduceCtorEq, false_or]
        grind
    · intro kd items b
      cases size with
      | none =>
        simp only [List.nil_append, List.mem_cons, reduceCtorEq, false_or, h4]
        grind
      | some b' =>
        simp only [List.cons_append, List.nil_append, List.mem_cons, GeoStatement.meshSize.injEq, h4,
          reduceCtorEq, false_or, Option.some.injEq]
        grind

section
variable {Sh K : Type} [DecidableEq Sh] [DecidableEq K] (key : Sh → K) (T : Topo Sh)

/-- Statements that set the mesh size of domains do not come after those that set the mesh size of entities. -/
def DomainSizesFirst (file : List GeoStatement) : Prop :=
  file.Pairwise fun a b => ∀ l l', a = GeoStatement.meshSize .surface l false →
    b ≠ GeoStatement.meshSize .volume l' true

omit [DecidableEq Sh] in
theorem write_val (w : BRepWriter Sh) {dOrd eOrd iOrd : List ℕ} (hd : IsTraversal w.domainToFragments dOrd)
    (he : IsTraversal w.entityToFragments eOrd) (hi : IsTraversal w.intersectionsToFragments iOrd) :
    ∃ file, GmshWriter.write dOrd eOrd iOrd w = .val file ∧ (file.filterMap groupOf).Nodup ∧
      (∀ id l, Defines file .volume id l ↔ l ≠ [] ∧ l = w.domainToFragments id) ∧
      (∀ id l, Defines file .surface id l ↔ l ≠ [] ∧ l = w.entityToFragments id) ∧
      (∀ id l, Defines file .line id l ↔ l ≠ [] ∧ l = w.intersectionsToFragments id) ∧
      (∀ kd l b, GeoStatement.meshSize kd l b ∈ file ↔ l ≠ [] ∧
        ((kd = .volume ∧ b = true ∧ ∃ id, Defines file .volume id l) ∨
         (kd = .surface ∧ b = false ∧ ∃ id, Defines file .surface id l))) ∧
      DomainSizesFirst file := by
  obtain ⟨a, a1, a2, a3, a4⟩ := groups_val .volume (some true) w.domainToFragments dOrd
    (fun k hk => (hd.2 k).1 hk)
  obtain ⟨b, b1, b2, b3, b4⟩ := groups_val .surface (some false) w.entityToFragments eOrd
    (fun k hk => (he.2 k).1 hk)
  obtain ⟨c, c1, c2, c3, c4⟩ := groups_val .line none w.intersectionsToFragments iOrd
    (fun k hk => (hi.2 k).1 hk)
  have hdef : ∀ id l,
      (Defines (a ++ b ++ c) .volume id l ↔ l ≠ [] ∧ l = w.domainToFragments id) ∧
      (Defines (a ++ b ++ c) .surface id l ↔ l ≠ [] ∧ l = w.entityToFragments id) ∧
      (Defines (a ++ b ++ c) .line id l ↔ l ≠ [] ∧ l = w.intersectionsToFragments id) := by
    intro id l
    simp only [Defines, List.mem_append, a3, b3, c3, reduceCtorEq, false_and, or_false, true_and, false_or,
      hd.2, he.2, hi.2]
    refine ⟨?_, ?_, ?_⟩ <;> constructor <;> rintro ⟨h1, h2⟩ <;> subst h2 <;> exact ⟨h1, rfl⟩
  refine ⟨a ++ b ++ c, ?_, ?_, fun id l => (hdef id l).1, fun id l => (hdef id l).2.1,
    fun id l => (hdef id l).2.2, ?_, ?_⟩
  · unfold GmshWriter.write
    rw [a1, Outcome.val_bind, b1, Outcome.val_bind, c1, Outcome.val_bind]
    rfl
  · rw [List.filterMap_append, List.filterMap_append, a2, b2, c2]
    have hm : ∀ (k : GeoKind) (l : List ℕ), l.Nodup → (l.map fun i => (k, i)).Nodup := fun k l hl =>
      List.Nodup.map (fun x y h => (Prod.mk.inj h).2) hl
    rw [List.nodup_append, List.nodup_append]
    refine ⟨⟨hm _ _ hd.1, hm _ _ he.1, ?_⟩, hm _ _ hi.1, ?_⟩
    · intro x hx y hy
      obtain ⟨i, -, rfl⟩ := List.mem_map.1 hx
      obtain ⟨j, -, rfl⟩ := List.mem_map.1 hy
      simp
    · intro x hx y hy
      obtain ⟨j, -, rfl⟩ := List.mem_map.1 hy
      rcases List.mem_append.1 hx with hx | hx
      · obtain ⟨i, -, rfl⟩ := List.mem_map.1 hx; simp
      · obtain ⟨i, -, rfl⟩ := List.mem_map.1 hx; simp
  · intro kd l bb
    rw [List.mem_append, List.mem_append, a4, b4, c4]
    have hV : (∃ id ∈ dOrd, l = w.domainToFragments id) ↔ l ≠ [] ∧ ∃ id, Defines (a ++ b ++ c) .volume id l := by
      constructor
      · rintro ⟨id, h1, rfl⟩
        have := (hd.2 id).1 h1
        exact ⟨this, id, (hdef _ _).1.2 ⟨this, rfl⟩⟩
      · rintro ⟨h1, id, h2⟩
        obtain ⟨-, rfl⟩ := (hdef _ _).1.1 h2
        exact ⟨id, (hd.2 id).2 h1, rfl⟩
    have hS : (∃ id ∈ eOrd, l = w.entityToFragments id) ↔ l ≠ [] ∧ ∃ id, Defines (a ++ b ++ c) .surface id l := by
      constructor
      · rintro ⟨id, h1, rfl⟩
        have := (he.2 id).1 h1
        exact ⟨this, id, (hdef _ _).2.1.2 ⟨this, rfl⟩⟩
      · rintro ⟨h1, id, h2⟩
        obtain ⟨-, rfl⟩ := (hdef _ _).2.1.1 h2
        exact ⟨id, (he.2 id).2 h1, rfl⟩
    rw [hV, hS]
    simp only [Option.some.injEq, reduceCtorEq, false_and, and_false, or_false]
    rw [eq_comm (a := true), eq_comm (a := false)]
    tauto
  · unfold DomainSizesFirst
    rw [List.append_assoc, List.pairwise_append]
    refine ⟨?_, ?_, ?_⟩
    · rw [List.pairwise_iff_forall_sublist]
      intro x y hxy l l' e _
      have : x ∈ a := hxy.subset (by simp)
      rw [e, a4] at this
      simp at this
    · rw [List.pairwise_iff_forall_sublist]
      intro x y hxy l l' _ e
      have : y ∈ b ++ c := hxy.subset (by simp)
      rw [e, List.mem_append, b4, c4] at this
      simp at this
    · intro x hx y hy l l' e _
      rw [e, a4] at hx
      simp at hx

/-! ## C49 Gmsh export lists every fragment in one physical group -/

/-- The file of a contained network: no group is empty or defined twice; the solids of the compound are sorted
into the physical volumes of their sub-domains, the faces of entities into the physical surfaces of their
entity index, and the physical lines contain edges that are shared by entities; the mesh size is set for all
volumes and surfaces, the ones of entities prevail. -/
theorem C49_contained (laws : Laws key T) (ids : List ℕ) (n : ContainedNetwork Sh) (w : BRepWriter Sh)
    (h : BRepWriter.ofContained key T ids n = .val w) {dOrd eOrd iOrd : List ℕ}
    (hd : IsTraversal w.domainToFragments dOrd) (he : IsTraversal w.entityToFragments eOrd)
    (hi : IsTraversal w.intersectionsToFragments iOrd) :
    ∃ vs es ws fs shs sos file, w.compound = vs ++ es ++ ws ++ fs ++ shs ++ sos ∧
      Complete key T (Spec.BRep.ofContained ids n) vs es ws fs shs sos ∧
      GmshWriter.write dOrd eOrd iOrd w = .val file ∧ (file.filterMap groupOf).Nodup ∧
      (∀ kind id l, Defines file kind id l → l ≠ [] ∧ l.Nodup) ∧
      (∀ id l, Defines file .volume id l → ∀ i ∈ l, ∃ x, At sos i x ∧
        SolidOf T (Spec.BRep.ofContained ids n) id x) ∧
      (∀ i x, At sos i x → ∃! id, ∃ l, Defines file .volume id l ∧ i ∈ l) ∧
      (∀ id l, Defines file .surface id l → ∀ i ∈ l, ∃ x, At fs i x ∧ MergedIndex key n.indexMaps ids x id) ∧
      (∀ i x, At fs i x → (∃ d ∈ ids, ∃ v, Bound key ((n.indexMaps d).getD []) x v) →
        ∃! id, ∃ l, Defines file .surface id l ∧ i ∈ l) ∧
      (∀ id l, Defines file .line id l → ∀ i ∈ l, ∃ x, At es i x ∧
        SharedEdge key T (EntityOfContained ids n) (key x)) ∧
      (∀ i id id' l l', Defines file .line id l → Defines file .line id' l' → i ∈ l → i ∈ l' → id = id') ∧
      (∀ kd l b, GeoStatement.meshSize kd l b ∈ file ↔ l ≠ [] ∧
        ((kd = .volume ∧ b = true ∧ ∃ id, Defines file .volume id l) ∨
         (kd = .surface ∧ b = false ∧ ∃ id, Defines file .surface id l))) ∧
      DomainSizesFirst file := by
  obtain ⟨file, f1, f2, f3, f4, f5, f6, f7⟩ := write_val w hd he hi
  obtain ⟨-, -, frags, hfr, hw, hix, -⟩ := ofContained_val key T h
  have hc := writer_complete key T laws (c := Spec.BRep.ofContained ids n) (fun d x => Iff.rfl) hfr hw
  have hex := C48_contained_partial key T ids n w h
  obtain ⟨l, l1, l2, l3⟩ := hw.owners
  have huniq : ∀ {m : List Sh} {i : ℕ} {x y : Sh}, At m i x → At m i y → y = x := by
    intro m i x y hx hy
    have := hy.2.symm.trans hx.2
    simpa using this
  refine ⟨w.vmap, w.emap, w.wmap, w.fmap, w.shmap, w.somap, file, rfl, hc, f1, f2, ?_, ?_, ?_, ?_, ?_, ?_, ?_,
    f6, f7⟩
  · intro kind id l hl
    cases kind with
    | volume =>
      obtain ⟨h1, rfl⟩ := (f3 _ _).1 hl
      exact ⟨h1, by rw [l3]; exact indicesOf_nodup _ _⟩
    | surface =>
      obtain ⟨h1, rfl⟩ := (f4 _ _).1 hl
      exact ⟨h1, entities_nodup key T hw.face _⟩
    | line =>
      obtain ⟨h1, rfl⟩ := (f5 _ _).1 hl
      exact ⟨h1, hex.nodup _⟩
  · intro id l hl i hi'
    obtain ⟨-, rfl⟩ := (f3 _ _).1 hl
    rw [l3, mem_indicesOf] at hi'
    obtain ⟨p, h1, h2, h3⟩ := hi'
    simp only [decide_eq_true_eq] at h3
    refine ⟨p.2, ⟨h1, by rw [← l1, List.getElem?_map, h2]; rfl⟩, ?_⟩
    rw [← h3]; exact l2 p (List.mem_of_getElem? h2)
  · rintro i x ⟨h1, h2⟩
    rw [← l1, List.getElem?_map, Option.map_eq_some_iff] at h2
    obtain ⟨p, hp, rfl⟩ := h2
    have hmem : ∀ d, i ∈ w.domainToFragments d ↔ p.1 = d := by
      intro d
      rw [l3, mem_indicesOf]
      constructor
      · rintro ⟨q, -, hq, e⟩
        rw [hp, Option.some.injEq] at hq
        subst hq
        simpa using e
      · rintro rfl; exact ⟨p, h1, hp, by simp⟩
    refine ⟨p.1, ⟨_, (f3 _ _).2 ⟨List.ne_nil_of_mem ((hmem p.1).2 rfl), rfl⟩, (hmem p.1).2 rfl⟩, ?_⟩
    rintro d ⟨l', hl', hi'⟩
    obtain ⟨-, rfl⟩ := (f3 _ _).1 hl'
    exact ((hmem d).1 hi').symm
  · intro id l hl i hi'
    obtain ⟨-, rfl⟩ := (f4 _ _).1 hl
    obtain ⟨x, hx, e⟩ := (listed_entities key T hw.face id i).1 hi'
    rw [hix] at e
    exact ⟨x, hx, (merged_find key _ _ x).1 id e⟩
  · intro i x hx hb
    obtain ⟨e, he'⟩ := Option.isSome_iff_exists.1 ((merged_find key _ _ x).2 hb)
    rw [← hix] at he'
    have hm := (listed_entities key T hw.face e i).2 ⟨x, hx, he'⟩
    refine ⟨e, ⟨_, (f4 _ _).2 ⟨List.ne_nil_of_mem hm, rfl⟩, hm⟩, ?_⟩
    rintro e' ⟨l', hl', hi'⟩
    obtain ⟨-, rfl⟩ := (f4 _ _).1 hl'
    obtain ⟨y, hy, e2⟩ := (listed_entities key T hw.face e' i).1 hi'
    obtain rfl := huniq hx hy
    rw [he'] at e2
    simpa using e2.symm
  · intro id l hl i hi'
    obtain ⟨-, rfl⟩ := (f5 _ _).1 hl
    exact hex.sound id i hi'
  · intro i id id' l l' hl hl' hi1 hi2
    obtain ⟨-, rfl⟩ := (f5 _ _).1 hl
    obtain ⟨-, rfl⟩ := (f5 _ _).1 hl'
    exact hex.once id id' i hi1 hi2

/-- The file of an uncontained network: there are no volumes; the groups of entities contain exactly the faces
with their index. -/
theorem C49_network (laws : Laws key T) (n : Network Sh) (hmap : IsDataMap key n.indexMap) (w : BRepWriter Sh)
    (h : BRepWriter.ofNetwork key T n = .val w) {dOrd eOrd iOrd : List ℕ}
    (hd : IsTraversal w.domainToFragments dOrd) (he : IsTraversal w.entityToFragments eOrd)
    (hi : IsTraversal w.intersectionsToFragments iOrd) :
    ∃ vs es ws fs file, w.compound = vs ++ es ++ ws ++ fs ∧
      Complete key T (Spec.BRep.ofNetwork n) vs es ws fs [] [] ∧
      GmshWriter.write dOrd eOrd iOrd w = .val file ∧ (file.filterMap groupOf).Nodup ∧
      (∀ id l, ¬ Defines file .volume id l) ∧
      (∀ kind id l, Defines file kind id l → l ≠ [] ∧ l.Nodup) ∧
      (∀ id i, (∃ l, Defines file .surface id l ∧ i ∈ l) ↔ ∃ x, At fs i x ∧ Bound key n.indexMap x id) ∧
      (∀ id l, Defines file .line id l → ∀ i ∈ l, ∃ x, At es i x ∧
        SharedEdge key T (EntityOf n) (key x)) ∧
      (∀ i id id' l l', Defines file .line id l → Defines file .line id' l' → i ∈ l → i ∈ l' → id = id') := by
  obtain ⟨file, f1, f2, f3, f4, f5, -, -⟩ := write_val w hd he hi
  obtain ⟨-, hw, hix, -⟩ := ofNetwork_val key T h
  have hc := writer_complete key T laws (c := Spec.BRep.ofNetwork n)
    (fun d x => by simp [SolidOf, Spec.BRep.ofNetwork]) (fun f => by rfl) hw
  obtain ⟨vs, es, ws, fs, -, -, -, -, hdom⟩ := C47_network key T laws n hmap w h
  have hex := C48_network_partial key T n w h
  have hso : w.somap = [] := by
    have := hc.2.2.2.2.2.2
    rw [← List.map_eq_nil_iff (f := key), List.eq_nil_iff_forall_not_mem]
    intro k hk
    obtain ⟨x, ⟨d, f, hf, -⟩, -⟩ := (this k).1 hk
    exact hf
  have hsh : w.shmap = [] := by
    rw [← List.map_eq_nil_iff (f := key), List.eq_nil_iff_forall_not_mem]
    intro k hk
    obtain ⟨x, hx, -⟩ := (hw.shClosed k).1 hk
    rw [hso] at hx
    simp at hx
  refine ⟨w.vmap, w.emap, w.wmap, w.fmap, file, ?_, by rw [hso, hsh] at hc; exact hc, f1, f2, ?_, ?_, ?_, ?_, ?_⟩
  · unfold BRepWriter.compound; rw [hso, hsh]; simp
  · intro id l hl
    obtain ⟨h1, rfl⟩ := (f3 _ _).1 hl
    exact h1 (hdom id)
  · intro kind id l hl
    cases kind with
    | volume =>
      obtain ⟨h1, rfl⟩ := (f3 _ _).1 hl
      exact absurd (hdom id) h1
    | surface =>
      obtain ⟨h1, rfl⟩ := (f4 _ _).1 hl
      exact ⟨h1, entities_nodup key T hw.face _⟩
    | line =>
      obtain ⟨h1, rfl⟩ := (f5 _ _).1 hl
      exact ⟨h1, hex.nodup _⟩
  · intro id i
    constructor
    · rintro ⟨l, hl, hi'⟩
      obtain ⟨-, rfl⟩ := (f4 _ _).1 hl
      obtain ⟨x, hx, e⟩ := (listed_entities key T hw.face id i).1 hi'
      rw [hix, rebind_find key _ hmap] at e
      exact ⟨x, hx, e⟩
    · rintro ⟨x, hx, e⟩
      rw [← rebind_find key _ hmap, ← hix] at e
      have hm := (listed_entities key T hw.face id i).2 ⟨x, hx, e⟩
      exact ⟨_, (f4 _ _).2 ⟨List.ne_nil_of_mem hm, rfl⟩, hm⟩
  · intro id l hl i hi'
    obtain ⟨-, rfl⟩ := (f5 _ _).1 hl
    exact hex.sound id i hi'
  · intro i id id' l l' hl hl' hi1 hi2
    obtain ⟨-, rfl⟩ := (f5 _ _).1 hl
    obtain ⟨-, rfl⟩ := (f5 _ _).1 hl'
    exact hex.once id id' i hi1 hi2

end

/-- The hypotheses are met by the network with a corner at the boundary: there are traversals of its maps. -/
example : ∃ w, BRepWriter.ofContained Prod.fst cornerTopo [1] cornerNetwork = .val w ∧
    IsTraversal w.domainToFragments [1] ∧ IsTraversal w.entityToFragments [2, 1] ∧
    IsTraversal w.intersectionsToFragments [] := by
  obtain ⟨w, hw, he, hi, hf⟩ := corner_val
  refine ⟨w, hw, ?_⟩
  obtain ⟨-, -, frags, -, hs, hix, -⟩ := ofContained_val Prod.fst cornerTopo hw
  have hdom : ∀ d, w.domainToFragments d = if d = 1 then [1] else [] := by
    have e : BRepWriter.ofContained Prod.fst cornerTopo [1] cornerNetwork = .val w := hw
    cases e
    intro d
    rfl
  refine ⟨⟨by decide, fun k => ?_⟩, ⟨by decide, fun k => ?_⟩, ⟨by decide, fun k => ?_⟩⟩
  · rw [hdom]; by_cases h : k = 1 <;> simp [h]
  · rw [hs.face.entities k, hf, hix]
    have h3 : DMap.find Prod.fst (Builder.mergeMaps Prod.fst cornerNetwork.indexMaps [1] 0 [])
      ((3, true) : ℕ × Bool) = none := by decide
    have h5 : DMap.find Prod.fst (Builder.mergeMaps Prod.fst cornerNetwork.indexMaps [1] 0 [])
      ((5, true) : ℕ × Bool) = some 1 := by decide
    have h6 : DMap.find Prod.fst (Builder.mergeMaps Prod.fst cornerNetwork.indexMaps [1] 0 [])
      ((6, true) : ℕ × Bool) = some 2 := by decide
    simp only [indicesOf, List.zipIdx_cons, List.zipIdx_nil, List.filter_cons, List.filter_nil, h3, h5, h6]
    by_cases h1 : k = 1
    · subst h1; simp
    · by_cases h2 : k = 2
      · subst h2; simp
      · have h1' : ¬ 1 = k := fun h => h1 h.symm
        have h2' : ¬ 2 = k := fun h => h2 h.symm
        simp [h1, h2, h1', h2']
  · cases k with
    | zero => rw [hs.face.wire.edge.isZero]; simp
    | succ k =>
      rw [hs.face.wire.edge.isLists k, he, hi]
      cases k with
      | zero => simp [indicesOf]
      | succ k => simp [indicesOf]

end Props
