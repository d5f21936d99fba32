import Verif.Spec.BRep
import Verif.Props.Merge

/-!
# Exported compound: C47
-/

namespace Props
open Verif Frackit Spec.BRep
open Frackit.Builder (Network ContainedNetwork)

section
variable {Sh K : Type} [DecidableEq Sh] [DecidableEq K] (key : Sh → K) (T : Topo Sh)

omit [DecidableEq Sh] in
theorem has_iff (m : List Sh) (s : Sh) : BRepWriter.has key m s = true ↔ key s ∈ m.map key := by
  simp only [BRepWriter.has, List.any_eq_true, decide_eq_true_eq, List.mem_map]

omit [DecidableEq Sh] [DecidableEq K] in
theorem nodup_append_key {m : List Sh} {s : Sh} (h : (m.map key).Nodup) (hs : key s ∉ m.map key) :
    ((m ++ [s]).map key).Nodup := by
  rw [List.map_append, List.map_cons, List.map_nil, List.nodup_append]
  refine ⟨h, by simp, ?_⟩
  intro a ha b hb
  rw [List.mem_singleton] at hb
  subst hb
  rintro rfl
  exact hs ha

/-! ## Vertices and edges -/

theorem addVertices_spec (w : BRepWriter Sh) (s : Sh) :
    ∃ vm, BRepWriter.addVertices key T w s = { w with vmap := vm } ∧
      ((w.vmap.map key).Nodup → (vm.map key).Nodup) ∧
      ∀ k, k ∈ vm.map key ↔ k ∈ w.vmap.map key ∨ k ∈ (T.vertices s).map key := by
  unfold BRepWriter.addVertices
  generalize T.vertices s = vs
  induction vs generalizing w with
  | nil => exact ⟨w.vmap, rfl, id, fun k => by simp⟩
  | cons v vs ih =>
    rw [List.foldl_cons]
    by_cases h : BRepWriter.has key w.vmap v = true
    · rw [if_pos h]
      obtain ⟨vm, e, h1, h2⟩ := ih w
      refine ⟨vm, e, h1, fun k => ?_⟩
      rw [h2 k, List.map_cons, List.mem_cons]
      rw [has_iff] at h
      constructor
      · tauto
      · rintro (h' | rfl | h') <;> tauto
    · rw [if_neg h]
      rw [has_iff] at h
      obtain ⟨vm, e, h1, h2⟩ := ih { w with vmap := w.vmap ++ [v] }
      refine ⟨vm, e, fun hn => h1 (nodup_append_key key hn h), fun k => ?_⟩
      rw [h2 k]
      simp only [List.map_append, List.map_cons, List.map_nil, List.mem_append, List.mem_cons,
        List.not_mem_nil, or_false, or_assoc]

/-- Indices (from one) of the elements of a list with a property. -/
def indicesOf {α : Type} (p : α → Bool) (m : List α) : List ℕ :=
  ((m.zipIdx 1).filter fun x => p x.1).map Prod.snd

theorem indicesOf_append {α : Type} (p : α → Bool) (m : List α) (x : α) :
    indicesOf p (m ++ [x]) = indicesOf p m ++ if p x then [m.length + 1] else [] := by
  unfold indicesOf
  rw [List.zipIdx_append, List.filter_append, List.map_append]
  congr 1
  by_cases h : p x <;> simp [h, Nat.add_comm]

theorem mem_indicesOf {α : Type} (p : α → Bool) (m : List α) (i : ℕ) :
    i ∈ indicesOf p m ↔ ∃ x, 1 ≤ i ∧ m[i - 1]? = some x ∧ p x = true := by
  unfold indicesOf
  simp only [List.mem_map, List.mem_filter, Prod.exists, exists_eq_right]
  constructor
  · rintro ⟨a, h1, h2⟩
    obtain ⟨h3, h4⟩ := List.mem_zipIdx_iff_le_and_getElem?_sub.1 h1
    exact ⟨a, h3, h4, h2⟩
  · rintro ⟨a, h1, h2, h3⟩
    exact ⟨a, List.mem_zipIdx_iff_le_and_getElem?_sub.2 ⟨h1, h2⟩, h3⟩

theorem indicesOf_nodup {α : Type} (p : α → Bool) (m : List α) : (indicesOf p m).Nodup := by
  unfold indicesOf
  have h : ((m.zipIdx 1).map Prod.snd).Nodup := by
    rw [List.zipIdx_map_snd]; exact List.nodup_range'
  exact h.sublist (List.filter_sublist.map _)

/-- Consistency of the maps of vertices and edges. -/
structure EdgeInv (w : BRepWriter Sh) : Prop where
  vNodup : (w.vmap.map key).Nodup
  eNodup : (w.emap.map key).Nodup
  vClosed : ∀ k, k ∈ w.vmap.map key ↔ ∃ e ∈ w.emap, k ∈ (T.vertices e).map key
  isZero : w.intersectionsToFragments 0 = []
  isLists : ∀ k, w.intersectionsToFragments (k + 1)
    = indicesOf (fun e => (w.intersections[k]?).any fun l => e ∈ l) w.emap

/-- Adding edges changes the maps of vertices and edges only. -/
def SameAbove (w w' : BRepWriter Sh) : Prop :=
  w'.allEntities = w.allEntities ∧ w'.indexMap = w.indexMap ∧ w'.intersections = w.intersections ∧
  w'.wmap = w.wmap ∧ w'.fmap = w.fmap ∧ w'.shmap = w.shmap ∧ w'.somap = w.somap ∧
  w'.entityToFragments = w.entityToFragments ∧ w'.domainToFragments = w.domainToFragments

omit [DecidableEq Sh] in
theorem SameAbove.refl (w : BRepWriter Sh) : SameAbove w w := ⟨rfl, rfl, rfl, rfl, rfl, rfl, rfl, rfl, rfl⟩

omit [DecidableEq Sh] in
theorem SameAbove.trans {a b c : BRepWriter Sh} (h : SameAbove a b) (h' : SameAbove b c) :
    SameAbove a c := by
  obtain ⟨a1, a2, a3, a4, a5, a6, a7, a8, a9⟩ := h
  obtain ⟨b1, b2, b3, b4, b5, b6, b7, b8, b9⟩ := h'
  exact ⟨b1.trans a1, b2.trans a2, b3.trans a3, b4.trans a4, b5.trans a5, b6.trans a6, b7.trans a7,
    b8.trans a8, b9.trans a9⟩

theorem addEdge_spec (w : BRepWriter Sh) (hw : EdgeInv key T w) (e : Sh) :
    EdgeInv key T (BRepWriter.addEdge key T w e) ∧ SameAbove w (BRepWriter.addEdge key T w e) ∧
    (∃ l, (BRepWriter.addEdge key T w e).emap = w.emap ++ l ∧ ∀ x ∈ l, x = e) ∧
    ∀ k, k ∈ (BRepWriter.addEdge key T w e).emap.map key ↔ k ∈ w.emap.map key ∨ k = key e := by
  unfold BRepWriter.addEdge
  by_cases h : BRepWriter.has key w.emap e = true
  · rw [if_pos h]
    rw [has_iff] at h
    refine ⟨hw, SameAbove.refl w, ⟨[], by simp⟩, fun k => ⟨Or.inl, ?_⟩⟩
    rintro (h' | rfl)
    · exact h'
    · exact h
  · rw [if_neg h]
    rw [has_iff] at h
    simp only
    obtain ⟨vm, he, h1, h2⟩ := addVertices_spec key T { w with
      emap := w.emap ++ [e]
      intersectionsToFragments := fun k =>
        if 1 ≤ k ∧ (w.intersections[k - 1]?).any (fun l => e ∈ l) then
          w.intersectionsToFragments k ++ [w.emap.length + 1]
        else w.intersectionsToFragments k } e
    rw [he]
    refine ⟨⟨h1 hw.vNodup, nodup_append_key key hw.eNodup h, fun k => ?_, ?_, fun k => ?_⟩,
      ⟨rfl, rfl, rfl, rfl, rfl, rfl, rfl, rfl, rfl⟩, ⟨[e], rfl, by simp⟩, fun k => ?_⟩
    · rw [h2 k]
      simp only [List.mem_append, List.mem_singleton]
      rw [hw.vClosed k]
      constructor
      · rintro (⟨x, hx, hk⟩ | hk)
        · exact ⟨x, Or.inl hx, hk⟩
        · exact ⟨e, Or.inr rfl, hk⟩
      · rintro ⟨x, hx | rfl, hk⟩
        · exact Or.inl ⟨x, hx, hk⟩
        · exact Or.inr hk
    · simp only
      rw [if_neg (by omega), hw.isZero]
    · simp only
      rw [indicesOf_append, hw.isLists k]
      simp only [Nat.le_add_left, true_and, Nat.add_sub_cancel]
      split_ifs <;> simp
    · simp [List.map_append]

/-- The result of exploring edges of a shape. -/
theorem addEdges_spec (w : BRepWriter Sh) (hw : EdgeInv key T w) (s : Sh) :
    EdgeInv key T (BRepWriter.addEdges key T w s) ∧ SameAbove w (BRepWriter.addEdges key T w s) ∧
    (∃ l, (BRepWriter.addEdges key T w s).emap = w.emap ++ l ∧ ∀ x ∈ l, x ∈ T.edges s) ∧
    ∀ k, k ∈ (BRepWriter.addEdges key T w s).emap.map key ↔
      k ∈ w.emap.map key ∨ k ∈ (T.edges s).map key := by
  unfold BRepWriter.addEdges
  generalize T.edges s = es
  induction es generalizing w with
  | nil => exact ⟨hw, SameAbove.refl w, ⟨[], by simp⟩, fun k => by simp⟩
  | cons e es ih =>
    rw [List.foldl_cons]
    obtain ⟨a1, a2, ⟨l1, a3, a4⟩, a5⟩ := addEdge_spec key T w hw e
    obtain ⟨b1, b2, ⟨l2, b3, b4⟩, b5⟩ := ih _ a1
    refine ⟨b1, a2.trans b2, ⟨l1 ++ l2, by rw [b3, a3, List.append_assoc], ?_⟩, fun k => ?_⟩
    · intro x hx
      rcases List.mem_append.1 hx with hx | hx
      · rw [a4 x hx]; simp
      · exact List.mem_cons_of_mem _ (b4 x hx)
    · rw [b5 k, a5 k, List.map_cons, List.mem_cons, or_assoc]

/-! ## Wires and faces -/

/-- Consistency of the maps up to wires. -/
structure WireInv (w : BRepWriter Sh) : Prop where
  edge : EdgeInv key T w
  wNodup : (w.wmap.map key).Nodup
  eClosed : ∀ k, k ∈ w.emap.map key ↔ ∃ x ∈ w.wmap, k ∈ (T.edges x).map key

/-- Adding wires does not change the maps of faces and above. -/
def SameFaces (w w' : BRepWriter Sh) : Prop :=
  w'.allEntities = w.allEntities ∧ w'.indexMap = w.indexMap ∧ w'.intersections = w.intersections ∧
  w'.fmap = w.fmap ∧ w'.shmap = w.shmap ∧ w'.somap = w.somap ∧
  w'.entityToFragments = w.entityToFragments ∧ w'.domainToFragments = w.domainToFragments

omit [DecidableEq Sh] in
theorem SameFaces.refl (w : BRepWriter Sh) : SameFaces w w := ⟨rfl, rfl, rfl, rfl, rfl, rfl, rfl, rfl⟩

omit [DecidableEq Sh] in
theorem SameFaces.trans {a b c : BRepWriter Sh} (h : SameFaces a b) (h' : SameFaces b c) :
    SameFaces a c := by
  obtain ⟨a1, a2, a3, a5, a6, a7, a8, a9⟩ := h
  obtain ⟨b1, b2, b3, b5, b6, b7, b8, b9⟩ := h'
  exact ⟨b1.trans a1, b2.trans a2, b3.trans a3, b5.trans a5, b6.trans a6, b7.trans a7,
    b8.trans a8, b9.trans a9⟩

theorem addWire_spec (w : BRepWriter Sh) (hw : WireInv key T w) (x : Sh) :
    WireInv key T (BRepWriter.addWire key T w x) ∧ SameFaces w (BRepWriter.addWire key T w x) ∧
    (∃ l, (BRepWriter.addWire key T w x).emap = w.emap ++ l ∧ ∀ y ∈ l, y ∈ T.edges x) ∧
    ∀ k, k ∈ (BRepWriter.addWire key T w x).wmap.map key ↔ k ∈ w.wmap.map key ∨ k = key x := by
  unfold BRepWriter.addWire
  by_cases h : BRepWriter.has key w.wmap x = true
  · rw [if_pos h]
    rw [has_iff] at h
    refine ⟨hw, SameFaces.refl w, ⟨[], by simp⟩, fun k => ⟨Or.inl, ?_⟩⟩
    rintro (h' | rfl)
    · exact h'
    · exact h
  · rw [if_neg h]
    rw [has_iff] at h
    obtain ⟨a1, ⟨s1, s2, s3, s4, s5, s6, s7, s8, s9⟩, a3, a4⟩ := addEdges_spec key T
      { w with wmap := w.wmap ++ [x] }
      ⟨hw.edge.vNodup, hw.edge.eNodup, hw.edge.vClosed, hw.edge.isZero, hw.edge.isLists⟩ x
    refine ⟨⟨a1, ?_, fun k => ?_⟩, ⟨s1, s2, s3, s5, s6, s7, s8, s9⟩, a3, fun k => ?_⟩
    · rw [s4]; exact nodup_append_key key hw.wNodup h
    · rw [a4 k, s4]
      simp only [List.mem_append, List.mem_singleton]
      rw [hw.eClosed k]
      constructor
      · rintro (⟨y, hy, hk⟩ | hk)
        · exact ⟨y, Or.inl hy, hk⟩
        · exact ⟨x, Or.inr rfl, hk⟩
      · rintro ⟨y, hy | rfl, hk⟩
        · exact Or.inl ⟨y, hy, hk⟩
        · exact Or.inr hk
    · rw [s4]; simp [List.map_append]

theorem addWires_spec (ws : List Sh) (w : BRepWriter Sh) (hw : WireInv key T w) :
    WireInv key T (ws.foldl (BRepWriter.addWire key T) w) ∧
    SameFaces w (ws.foldl (BRepWriter.addWire key T) w) ∧
    (∃ l, (ws.foldl (BRepWriter.addWire key T) w).emap = w.emap ++ l ∧
      ∀ y ∈ l, ∃ x ∈ ws, y ∈ T.edges x) ∧
    ∀ k, k ∈ (ws.foldl (BRepWriter.addWire key T) w).wmap.map key ↔
      k ∈ w.wmap.map key ∨ k ∈ ws.map key := by
  induction ws generalizing w with
  | nil => exact ⟨hw, SameFaces.refl w, ⟨[], by simp⟩, fun k => by simp⟩
  | cons x ws ih =>
    rw [List.foldl_cons]
    obtain ⟨a1, a2, ⟨l1, a3, a4⟩, a5⟩ := addWire_spec key T w hw x
    obtain ⟨b1, b2, ⟨l2, b3, b4⟩, b5⟩ := ih _ a1
    refine ⟨b1, a2.trans b2, ⟨l1 ++ l2, by rw [b3, a3, List.append_assoc], ?_⟩, fun k => ?_⟩
    · intro y hy
      rcases List.mem_append.1 hy with hy | hy
      · exact ⟨x, by simp, a4 y hy⟩
      · obtain ⟨z, hz, h⟩ := b4 y hy
        exact ⟨z, List.mem_cons_of_mem _ hz, h⟩
    · rw [b5 k, a5 k, List.map_cons, List.mem_cons, or_assoc]

/-- Consistency of the maps up to faces; `E` is the property of edges of being seen by one of the visited
faces. -/
structure FaceInv (w : BRepWriter Sh) : Prop where
  wire : WireInv key T w
  fNodup : (w.fmap.map key).Nodup
  wClosed : ∀ k, k ∈ w.wmap.map key ↔ ∃ f ∈ w.fmap, k ∈ (T.wires (T.forward f)).map key
  entities : ∀ k, w.entityToFragments k = indicesOf (fun f => DMap.find key w.indexMap f = some k) w.fmap
  seen : ∀ e ∈ w.emap, ∃ f ∈ w.fmap, ∃ x ∈ T.wires (T.forward f), e ∈ T.edges x

/-- Adding faces does not change the maps of shells and above. -/
def SameShells (w w' : BRepWriter Sh) : Prop :=
  w'.allEntities = w.allEntities ∧ w'.indexMap = w.indexMap ∧ w'.intersections = w.intersections ∧
  w'.shmap = w.shmap ∧ w'.somap = w.somap ∧ w'.domainToFragments = w.domainToFragments

omit [DecidableEq Sh] in
theorem SameShells.refl (w : BRepWriter Sh) : SameShells w w := ⟨rfl, rfl, rfl, rfl, rfl, rfl⟩

omit [DecidableEq Sh] in
theorem SameShells.trans {a b c : BRepWriter Sh} (h : SameShells a b) (h' : SameShells b c) :
    SameShells a c := by
  obtain ⟨a1, a2, a3, a5, a6, a7⟩ := h
  obtain ⟨b1, b2, b3, b5, b6, b7⟩ := h'
  exact ⟨b1.trans a1, b2.trans a2, b3.trans a3, b5.trans a5, b6.trans a6, b7.trans a7⟩

theorem addFace_spec (w : BRepWriter Sh) (hw : FaceInv key T w) (f : Sh) :
    FaceInv key T (BRepWriter.addFace key T w f) ∧ SameShells w (BRepWriter.addFace key T w f) ∧
    (∃ l, (BRepWriter.addFace key T w f).fmap = w.fmap ++ l ∧ ∀ y ∈ l, y = f) ∧
    ∀ k, k ∈ (BRepWriter.addFace key T w f).fmap.map key ↔ k ∈ w.fmap.map key ∨ k = key f := by
  unfold BRepWriter.addFace
  by_cases h : BRepWriter.has key w.fmap f = true
  · rw [if_pos h]
    rw [has_iff] at h
    refine ⟨hw, SameShells.refl w, ⟨[], by simp⟩, fun k => ⟨Or.inl, ?_⟩⟩
    rintro (h' | rfl)
    · exact h'
    · exact h
  · rw [if_neg h]
    rw [has_iff] at h
    simp only
    obtain ⟨a1, ⟨s1, s2, s3, s5, s6, s7, s8, s9⟩, ⟨l, a3, a3'⟩, a4⟩ := addWires_spec key T
      (T.wires (T.forward f)) { w with
        fmap := w.fmap ++ [f]
        entityToFragments := fun k =>
          if DMap.find key w.indexMap f = some k then w.entityToFragments k ++ [w.fmap.length + 1]
          else w.entityToFragments k }
      ⟨⟨hw.wire.edge.vNodup, hw.wire.edge.eNodup, hw.wire.edge.vClosed, hw.wire.edge.isZero,
        hw.wire.edge.isLists⟩, hw.wire.wNodup, hw.wire.eClosed⟩
    refine ⟨⟨a1, ?_, fun k => ?_, fun k => ?_, fun e he => ?_⟩, ⟨s1, s2, s3, s6, s7, s9⟩,
      ⟨[f], s5, by simp⟩, fun k => ?_⟩
    · rw [s5]; exact nodup_append_key key hw.fNodup h
    · rw [a4 k, s5]
      simp only [List.mem_append, List.mem_singleton]
      rw [hw.wClosed k]
      constructor
      · rintro (⟨y, hy, hk⟩ | hk)
        · exact ⟨y, Or.inl hy, hk⟩
        · exact ⟨f, Or.inr rfl, hk⟩
      · rintro ⟨y, hy | rfl, hk⟩
        · exact Or.inl ⟨y, hy, hk⟩
        · exact Or.inr hk
    · rw [s8, s2, s5]
      simp only
      rw [indicesOf_append, hw.entities k]
      split_ifs with h1 h2 h2 <;> simp_all
    · rw [a3] at he
      rw [s5]
      rcases List.mem_append.1 he with he | he
      · obtain ⟨g, hg, x, hx, h'⟩ := hw.seen e he
        exact ⟨g, List.mem_append_left _ hg, x, hx, h'⟩
      · obtain ⟨x, hx, h'⟩ := a3' e he
        exact ⟨f, by simp, x, hx, h'⟩
    · rw [s5]; simp [List.map_append]

theorem addFaceList_spec (fs : List Sh) (w : BRepWriter Sh) (hw : FaceInv key T w) :
    FaceInv key T (fs.foldl (BRepWriter.addFace key T) w) ∧
    SameShells w (fs.foldl (BRepWriter.addFace key T) w) ∧
    (∃ l, (fs.foldl (BRepWriter.addFace key T) w).fmap = w.fmap ++ l ∧ ∀ y ∈ l, y ∈ fs) ∧
    ∀ k, k ∈ (fs.foldl (BRepWriter.addFace key T) w).fmap.map key ↔
      k ∈ w.fmap.map key ∨ k ∈ fs.map key := by
  induction fs generalizing w with
  | nil => exact ⟨hw, SameShells.refl w, ⟨[], by simp⟩, fun k => by simp⟩
  | cons x fs ih =>
    rw [List.foldl_cons]
    obtain ⟨a1, a2, ⟨l1, a3, a4⟩, a5⟩ := addFace_spec key T w hw x
    obtain ⟨b1, b2, ⟨l2, b3, b4⟩, b5⟩ := ih _ a1
    refine ⟨b1, a2.trans b2, ⟨l1 ++ l2, by rw [b3, a3, List.append_assoc], ?_⟩, fun k => ?_⟩
    · intro y hy
      rcases List.mem_append.1 hy with hy | hy
      · rw [a4 y hy]; simp
      · exact List.mem_cons_of_mem _ (b4 y hy)
    · rw [b5 k, a5 k, List.map_cons, List.mem_cons, or_assoc]

theorem addNetwork_spec (frags : List Sh) (w : BRepWriter Sh) (hw : FaceInv key T w) :
    FaceInv key T (BRepWriter.addNetwork key T w frags) ∧
    SameShells w (BRepWriter.addNetwork key T w frags) ∧
    (∃ l, (BRepWriter.addNetwork key T w frags).fmap = w.fmap ++ l ∧
      ∀ y ∈ l, ∃ g ∈ frags, y ∈ T.faces g) ∧
    ∀ k, k ∈ (BRepWriter.addNetwork key T w frags).fmap.map key ↔
      k ∈ w.fmap.map key ∨ ∃ g ∈ frags, k ∈ (T.faces g).map key := by
  unfold BRepWriter.addNetwork
  induction frags generalizing w with
  | nil => exact ⟨hw, SameShells.refl w, ⟨[], by simp⟩, fun k => by simp⟩
  | cons x fs ih =>
    rw [List.foldl_cons]
    unfold BRepWriter.addFaces at ih ⊢
    obtain ⟨a1, a2, ⟨l1, a3, a4⟩, a5⟩ := addFaceList_spec key T (T.faces x) w hw
    obtain ⟨b1, b2, ⟨l2, b3, b4⟩, b5⟩ := ih _ a1
    refine ⟨b1, a2.trans b2, ⟨l1 ++ l2, by rw [b3]; rw [a3, List.append_assoc], ?_⟩,
      fun k => ?_⟩
    · intro y hy
      rcases List.mem_append.1 hy with hy | hy
      · exact ⟨x, by simp, a4 y hy⟩
      · obtain ⟨g, hg, h⟩ := b4 y hy
        exact ⟨g, List.mem_cons_of_mem _ hg, h⟩
    · rw [b5 k, a5 k, or_assoc]
      simp

/-! ## Shells and solids -/

/-- Consistency of the maps up to shells. -/
structure ShellInv (w : BRepWriter Sh) : Prop where
  face : FaceInv key T w
  shNodup : (w.shmap.map key).Nodup
  fClosed : ∀ k, k ∈ w.fmap.map key ↔ ∃ x ∈ w.shmap, k ∈ (T.faces x).map key

/-- Adding shells does not change the solids. -/
def SameSolids (w w' : BRepWriter Sh) : Prop :=
  w'.allEntities = w.allEntities ∧ w'.indexMap = w.indexMap ∧ w'.intersections = w.intersections ∧
  w'.somap = w.somap ∧ w'.domainToFragments = w.domainToFragments

omit [DecidableEq Sh] in
theorem SameSolids.refl (w : BRepWriter Sh) : SameSolids w w := ⟨rfl, rfl, rfl, rfl, rfl⟩

omit [DecidableEq Sh] in
theorem SameSolids.trans {a b c : BRepWriter Sh} (h : SameSolids a b) (h' : SameSolids b c) :
    SameSolids a c := by
  obtain ⟨a1, a2, a3, a5, a6⟩ := h
  obtain ⟨b1, b2, b3, b5, b6⟩ := h'
  exact ⟨b1.trans a1, b2.trans a2, b3.trans a3, b5.trans a5, b6.trans a6⟩

theorem addShell_spec (w : BRepWriter Sh) (hw : ShellInv key T w) (x : Sh) :
    ShellInv key T (BRepWriter.addShell key T w x) ∧ SameSolids w (BRepWriter.addShell key T w x) ∧
    ∀ k, k ∈ (BRepWriter.addShell key T w x).shmap.map key ↔ k ∈ w.shmap.map key ∨ k = key x := by
  unfold BRepWriter.addShell
  by_cases h : BRepWriter.has key w.shmap x = true
  · rw [if_pos h]
    rw [has_iff] at h
    refine ⟨hw, SameSolids.refl w, fun k => ⟨Or.inl, ?_⟩⟩
    rintro (h' | rfl)
    · exact h'
    · exact h
  · rw [if_neg h]
    rw [has_iff] at h
    unfold BRepWriter.addFaces
    obtain ⟨a1, ⟨s1, s2, s3, s6, s7, s9⟩, -, a4⟩ := addFaceList_spec key T (T.faces x)
      { w with shmap := w.shmap ++ [x] }
      ⟨⟨⟨hw.face.wire.edge.vNodup, hw.face.wire.edge.eNodup, hw.face.wire.edge.vClosed,
        hw.face.wire.edge.isZero, hw.face.wire.edge.isLists⟩, hw.face.wire.wNodup,
        hw.face.wire.eClosed⟩, hw.face.fNodup, hw.face.wClosed, hw.face.entities, hw.face.seen⟩
    refine ⟨⟨a1, ?_, fun k => ?_⟩, ⟨s1, s2, s3, s7, s9⟩, fun k => ?_⟩
    · rw [s6]; exact nodup_append_key key hw.shNodup h
    · rw [a4 k, s6]
      simp only [List.mem_append, List.mem_singleton]
      rw [hw.fClosed k]
      constructor
      · rintro (⟨y, hy, hk⟩ | hk)
        · exact ⟨y, Or.inl hy, hk⟩
        · exact ⟨x, Or.inr rfl, hk⟩
      · rintro ⟨y, hy | rfl, hk⟩
        · exact Or.inl ⟨y, hy, hk⟩
        · exact Or.inr hk
    · rw [s6]; simp [List.map_append]

theorem addShells_spec (ss : List Sh) (w : BRepWriter Sh) (hw : ShellInv key T w) :
    ShellInv key T (ss.foldl (BRepWriter.addShell key T) w) ∧
    SameSolids w (ss.foldl (BRepWriter.addShell key T) w) ∧
    ∀ k, k ∈ (ss.foldl (BRepWriter.addShell key T) w).shmap.map key ↔
      k ∈ w.shmap.map key ∨ k ∈ ss.map key := by
  induction ss generalizing w with
  | nil => exact ⟨hw, SameSolids.refl w, fun k => by simp⟩
  | cons x fs ih =>
    rw [List.foldl_cons]
    obtain ⟨a1, a2, a5⟩ := addShell_spec key T w hw x
    obtain ⟨b1, b2, b5⟩ := ih _ a1
    refine ⟨b1, a2.trans b2, fun k => ?_⟩
    rw [b5 k, a5 k, List.map_cons, List.mem_cons, or_assoc]

/-- Consistency of the maps of solids; `S d x` tells that `x` is a solid visited for sub-domain `d`. -/
structure SolidInv (S : ℕ → Sh → Prop) (w : BRepWriter Sh) : Prop where
  shell : ShellInv key T w
  soNodup : (w.somap.map key).Nodup
  shClosed : ∀ k, k ∈ w.shmap.map key ↔ ∃ x ∈ w.somap, k ∈ (T.shells x).map key
  soClosed : ∀ k, k ∈ w.somap.map key ↔ ∃ d x, S d x ∧ key x = k
  owners : ∃ l : List (ℕ × Sh), l.map Prod.snd = w.somap ∧ (∀ p ∈ l, S p.1 p.2) ∧
    ∀ d, w.domainToFragments d = indicesOf (fun p => p.1 = d) l

/-- Visiting a domain does not change the entities. -/
def SameEntities (w w' : BRepWriter Sh) : Prop :=
  w'.allEntities = w.allEntities ∧ w'.indexMap = w.indexMap ∧ w'.intersections = w.intersections

theorem addSolid_spec (S : ℕ → Sh → Prop) (d : ℕ) (w : BRepWriter Sh) (hw : SolidInv key T S w) (x : Sh) :
    SolidInv key T (fun d' y => S d' y ∨ (d' = d ∧ y = x)) (BRepWriter.addSolid key T d w x) ∧
    SameEntities w (BRepWriter.addSolid key T d w x) := by
  unfold BRepWriter.addSolid
  by_cases h : BRepWriter.has key w.somap x = true
  · rw [if_pos h]
    rw [has_iff] at h
    refine ⟨⟨hw.shell, hw.soNodup, hw.shClosed, fun k => ?_, ?_⟩, rfl, rfl, rfl⟩
    · rw [hw.soClosed k]
      constructor
      · rintro ⟨d', y, hy, hk⟩; exact ⟨d', y, Or.inl hy, hk⟩
      · rintro ⟨d', y, hy | ⟨-, rfl⟩, hk⟩
        · exact ⟨d', y, hy, hk⟩
        · rw [← hk]; exact (hw.soClosed _).1 h
    · obtain ⟨l, h1, h2, h3⟩ := hw.owners
      exact ⟨l, h1, fun p hp => Or.inl (h2 p hp), h3⟩
  · rw [if_neg h]
    rw [has_iff] at h
    simp only
    obtain ⟨a1, ⟨s1, s2, s3, s7, s9⟩, a4⟩ := addShells_spec key T (T.shells x) { w with
        somap := w.somap ++ [x]
        domainToFragments := fun k =>
          if k = d then w.domainToFragments k ++ [w.somap.length + 1] else w.domainToFragments k }
      ⟨⟨⟨⟨hw.shell.face.wire.edge.vNodup, hw.shell.face.wire.edge.eNodup, hw.shell.face.wire.edge.vClosed,
        hw.shell.face.wire.edge.isZero, hw.shell.face.wire.edge.isLists⟩, hw.shell.face.wire.wNodup,
        hw.shell.face.wire.eClosed⟩, hw.shell.face.fNodup, hw.shell.face.wClosed,
        hw.shell.face.entities, hw.shell.face.seen⟩, hw.shell.shNodup, hw.shell.fClosed⟩
    refine ⟨⟨a1, ?_, fun k => ?_, fun k => ?_, ?_⟩, s1, s2, s3⟩
    · rw [s7]; exact nodup_append_key key hw.soNodup h
    · rw [a4 k, s7]
      simp only [List.mem_append, List.mem_singleton]
      rw [hw.shClosed k]
      constructor
      · rintro (⟨y, hy, hk⟩ | hk)
        · exact ⟨y, Or.inl hy, hk⟩
        · exact ⟨x, Or.inr rfl, hk⟩
      · rintro ⟨y, hy | rfl, hk⟩
        · exact Or.inl ⟨y, hy, hk⟩
        · exact Or.inr hk
    · rw [s7]
      simp only [List.map_append, List.map_cons, List.map_nil, List.mem_append, List.mem_singleton]
      rw [hw.soClosed k]
      constructor
      · rintro (⟨d', y, hy, hk⟩ | rfl)
        · exact ⟨d', y, Or.inl hy, hk⟩
        · exact ⟨d, x, Or.inr ⟨rfl, rfl⟩, rfl⟩
      · rintro ⟨d', y, hy | ⟨-, rfl⟩, hk⟩
        · exact Or.inl ⟨d', y, hy, hk⟩
        · exact Or.inr hk.symm
    · obtain ⟨l, h1, h2, h3⟩ := hw.owners
      refine ⟨l ++ [(d, x)], by rw [s7, List.map_append, h1]; rfl, ?_, fun k => ?_⟩
      · intro p hp
        rcases List.mem_append.1 hp with hp | hp
        · exact Or.inl (h2 p hp)
        · rw [List.mem_singleton] at hp
          subst hp
          exact Or.inr ⟨rfl, rfl⟩
      · rw [s9]
        simp only
        rw [indicesOf_append, h3 k]
        have hl : l.length = w.somap.length := by rw [← h1, List.length_map]
        by_cases hk : k = d
        · subst hk; simp [hl]
        · have hk' : ¬ d = k := fun h => hk h.symm
          simp [hk, hk']

theorem solidInv_congr {S S' : ℕ → Sh → Prop} (h : ∀ d x, S d x ↔ S' d x) {w : BRepWriter Sh}
    (hw : SolidInv key T S w) : SolidInv key T S' w := by
  have : S = S' := by funext d x; exact propext (h d x)
  exact this ▸ hw

theorem addSolidList_spec (d : ℕ) (xs : List Sh) (S : ℕ → Sh → Prop) (w : BRepWriter Sh)
    (hw : SolidInv key T S w) :
    SolidInv key T (fun d' y => S d' y ∨ (d' = d ∧ y ∈ xs)) (xs.foldl (BRepWriter.addSolid key T d) w) ∧
    SameEntities w (xs.foldl (BRepWriter.addSolid key T d) w) := by
  induction xs generalizing S w with
  | nil =>
    refine ⟨solidInv_congr key T (fun d x => by simp) hw, rfl, rfl, rfl⟩
  | cons x xs ih =>
    rw [List.foldl_cons]
    obtain ⟨a1, a2, a3, a4⟩ := addSolid_spec key T S d w hw x
    obtain ⟨b1, b2, b3, b4⟩ := ih _ _ a1
    refine ⟨solidInv_congr key T (fun d' y => ?_) b1, b2.trans a2, b3.trans a3, b4.trans a4⟩
    simp only [List.mem_cons]
    tauto

theorem addSolids_spec (d : ℕ) (fs : List Sh) (S : ℕ → Sh → Prop) (w : BRepWriter Sh)
    (hw : SolidInv key T S w) :
    SolidInv key T (fun d' y => S d' y ∨ (d' = d ∧ ∃ f ∈ fs, y ∈ T.solids f))
      (fs.foldl (BRepWriter.addSolids key T d) w) ∧
    SameEntities w (fs.foldl (BRepWriter.addSolids key T d) w) := by
  induction fs generalizing S w with
  | nil =>
    refine ⟨solidInv_congr key T (fun d x => by simp) hw, rfl, rfl, rfl⟩
  | cons f fs ih =>
    rw [List.foldl_cons]
    unfold BRepWriter.addSolids at ih ⊢
    obtain ⟨a1, a2, a3, a4⟩ := addSolidList_spec key T d (T.solids f) S w hw
    obtain ⟨b1, b2, b3, b4⟩ := ih _ _ a1
    refine ⟨solidInv_congr key T (fun d' y => ?_) b1, b2.trans a2, b3.trans a3, b4.trans a4⟩
    simp only [List.mem_cons, exists_eq_or_imp]
    tauto

theorem addDomains_spec (ds : List (ℕ × List Sh)) (S : ℕ → Sh → Prop) (w : BRepWriter Sh)
    (hw : SolidInv key T S w) :
    SolidInv key T (fun d y => S d y ∨ ∃ p ∈ ds, p.1 = d ∧ ∃ f ∈ p.2, y ∈ T.solids f)
      (BRepWriter.addDomains key T w ds) ∧ SameEntities w (BRepWriter.addDomains key T w ds) := by
  unfold BRepWriter.addDomains
  induction ds generalizing S w with
  | nil =>
    refine ⟨solidInv_congr key T (fun d x => by simp) hw, rfl, rfl, rfl⟩
  | cons p ds ih =>
    rw [List.foldl_cons]
    obtain ⟨a1, a2, a3, a4⟩ := addSolids_spec key T p.1 p.2 S w hw
    obtain ⟨b1, b2, b3, b4⟩ := ih _ _ a1
    refine ⟨solidInv_congr key T (fun d' y => ?_) b1, b2.trans a2, b3.trans a3, b4.trans a4⟩
    simp only [List.mem_cons, exists_eq_or_imp]
    rw [or_assoc, eq_comm (a := d')]

/-! ## Construction of a writer -/

theorem start_inv (ents : List Sh) (im : DMap Sh) (is : List (List Sh)) :
    SolidInv key T (fun _ _ => False) (BRepWriter.start ents im is) := by
  refine ⟨⟨⟨⟨⟨?_, ?_, ?_, rfl, fun k => ?_⟩, ?_, ?_⟩, ?_, ?_, fun k => ?_, ?_⟩, ?_, ?_⟩, ?_, ?_, ?_,
    ⟨[], rfl, ?_, fun d => ?_⟩⟩ <;> simp [BRepWriter.start, BRepWriter.empty, indicesOf]

/-- State of a writer for domains `ds` and entity fragments `frags`. -/
structure WriterSpec (S : ℕ → Sh → Prop) (frags : List Sh) (w : BRepWriter Sh) : Prop where
  face : FaceInv key T w
  shNodup : (w.shmap.map key).Nodup
  fClosed : ∀ k, k ∈ w.fmap.map key ↔
    (∃ x ∈ w.shmap, k ∈ (T.faces x).map key) ∨ ∃ g ∈ frags, k ∈ (T.faces g).map key
  soNodup : (w.somap.map key).Nodup
  shClosed : ∀ k, k ∈ w.shmap.map key ↔ ∃ x ∈ w.somap, k ∈ (T.shells x).map key
  soClosed : ∀ k, k ∈ w.somap.map key ↔ ∃ d x, S d x ∧ key x = k
  owners : ∃ l : List (ℕ × Sh), l.map Prod.snd = w.somap ∧ (∀ p ∈ l, S p.1 p.2) ∧
    ∀ d, w.domainToFragments d = indicesOf (fun p => p.1 = d) l

theorem writer_spec (ents : List Sh) (im : DMap Sh) (is : List (List Sh)) (ds : List (ℕ × List Sh))
    (frags : List Sh) :
    WriterSpec key T (fun d y => ∃ p ∈ ds, p.1 = d ∧ ∃ f ∈ p.2, y ∈ T.solids f) frags
      (BRepWriter.addNetwork key T (BRepWriter.addDomains key T (BRepWriter.start ents im is) ds)
        frags) ∧
    (BRepWriter.addNetwork key T (BRepWriter.addDomains key T (BRepWriter.start ents im is) ds)
        frags).indexMap = im ∧
    (BRepWriter.addNetwork key T (BRepWriter.addDomains key T (BRepWriter.start ents im is) ds)
        frags).intersections = is := by
  obtain ⟨a1, a2, a3, a4⟩ := addDomains_spec key T ds _ _ (start_inv key T ents im is)
  obtain ⟨b1, ⟨s1, s2, s3, s6, s7, s9⟩, -, b4⟩ := addNetwork_spec key T frags _ a1.shell.face
  refine ⟨⟨b1, s6 ▸ a1.shell.shNodup, fun k => ?_, s7 ▸ a1.soNodup, ?_, fun k => ?_, ?_⟩,
    s2.trans a3, s3.trans a4⟩
  · rw [b4 k, s6, a1.shell.fClosed k]
  · rw [s6, s7]; exact a1.shClosed
  · rw [s7, a1.soClosed k]; simp only [false_or]
  · rw [s7, s9]
    obtain ⟨l, h1, h2, h3⟩ := a1.owners
    exact ⟨l, h1, fun p hp => by simpa using h2 p hp, h3⟩

omit [DecidableEq Sh] [DecidableEq K] in
theorem explored_congr {explore : Sh → List Sh}
    (h : ∀ s t, key s = key t → ∀ x ∈ explore s, ∃ y ∈ explore t, key y = key x) {m : List Sh}
    {P : Sh → Prop} (hm : ∀ k, k ∈ m.map key ↔ ∃ x, P x ∧ key x = k) (k : K) :
    (∃ x ∈ m, k ∈ (explore x).map key) ↔ ∃ y, (∃ s, P s ∧ y ∈ explore s) ∧ key y = k := by
  constructor
  · rintro ⟨x, hx, hk⟩
    obtain ⟨y, hy, rfl⟩ := List.mem_map.1 hk
    obtain ⟨s, hs, hxs⟩ := (hm (key x)).1 (List.mem_map_of_mem hx)
    obtain ⟨z, hz, e⟩ := h x s hxs.symm y hy
    exact ⟨z, ⟨s, hs, hz⟩, e⟩
  · rintro ⟨y, ⟨s, hs, hy⟩, rfl⟩
    obtain ⟨x, hx, e⟩ := List.mem_map.1 ((hm (key s)).2 ⟨s, hs, rfl⟩)
    obtain ⟨z, hz, e'⟩ := h s x e.symm y hy
    exact ⟨x, hx, List.mem_map.2 ⟨z, hz, e'⟩⟩

/-- A writer for some content holds all sub-shapes, each of them once. -/
theorem writer_complete (laws : Laws key T) {c : Content Sh} {S : ℕ → Sh → Prop} {frags : List Sh}
    (hS : ∀ d x, S d x ↔ SolidOf T c d x) (hf : ∀ f, f ∈ frags ↔ c.entity f) {w : BRepWriter Sh}
    (h : WriterSpec key T S frags w) : Complete key T c w.vmap w.emap w.wmap w.fmap w.shmap w.somap := by
  have hso : ∀ k, k ∈ w.somap.map key ↔ ∃ x, Solid T c x ∧ key x = k := by
    intro k
    rw [h.soClosed k]
    constructor
    · rintro ⟨d, x, hx, e⟩; exact ⟨x, ⟨d, (hS d x).1 hx⟩, e⟩
    · rintro ⟨x, ⟨d, hx⟩, e⟩; exact ⟨d, x, (hS d x).2 hx, e⟩
  have hsh : ∀ k, k ∈ w.shmap.map key ↔ ∃ x, Shell T c x ∧ key x = k := by
    intro k
    rw [h.shClosed k, explored_congr key (laws.congr T.shells (by simp)) hso]
    rfl
  have hfa : ∀ k, k ∈ w.fmap.map key ↔ ∃ x, Face T c x ∧ key x = k := by
    intro k
    rw [h.fClosed k, explored_congr key (laws.congr T.faces (by simp)) hsh]
    constructor
    · rintro (⟨y, hy, e⟩ | ⟨g, hg, hk⟩)
      · exact ⟨y, Or.inl hy, e⟩
      · obtain ⟨y, hy, e⟩ := List.mem_map.1 hk
        exact ⟨y, Or.inr ⟨g, (hf g).1 hg, hy⟩, e⟩
    · rintro ⟨y, hy | ⟨g, hg, hy⟩, e⟩
      · exact Or.inl ⟨y, hy, e⟩
      · exact Or.inr ⟨g, (hf g).2 hg, List.mem_map.2 ⟨y, hy, e⟩⟩
  have hwi : ∀ k, k ∈ w.wmap.map key ↔ ∃ x, Wire T c x ∧ key x = k := by
    intro k
    rw [h.face.wClosed k, explored_congr key (explore := fun f => T.wires (T.forward f)) ?_ hfa]
    · constructor
      · rintro ⟨y, ⟨s, hs, hy⟩, e⟩
        obtain ⟨z, hz, e'⟩ := laws.congr T.wires (by simp) _ _ (laws.forward s) y hy
        exact ⟨z, ⟨s, hs, hz⟩, e'.trans e⟩
      · rintro ⟨y, ⟨s, hs, hy⟩, e⟩
        obtain ⟨z, hz, e'⟩ := laws.congr T.wires (by simp) _ _ (laws.forward s).symm y hy
        exact ⟨z, ⟨s, hs, hz⟩, e'.trans e⟩
    · intro s t e x hx
      exact laws.congr T.wires (by simp) _ _ ((laws.forward s).trans (e.trans (laws.forward t).symm)) x hx
  have hed : ∀ k, k ∈ w.emap.map key ↔ ∃ x, Edge T c x ∧ key x = k := by
    intro k
    rw [h.face.wire.eClosed k, explored_congr key (laws.congr T.edges (by simp)) hwi]
    rfl
  have hve : ∀ k, k ∈ w.vmap.map key ↔ ∃ x, Vertex T c x ∧ key x = k := by
    intro k
    rw [h.face.wire.edge.vClosed k, explored_congr key (laws.congr T.vertices (by simp)) hed]
    rfl
  exact ⟨⟨h.face.wire.edge.vNodup, hve⟩, ⟨h.face.wire.edge.eNodup, hed⟩, ⟨h.face.wire.wNodup, hwi⟩,
    ⟨h.face.fNodup, hfa⟩, ⟨h.shNodup, hsh⟩, ⟨h.soNodup, hso⟩⟩

/-! ## C47 Exported BRep compound contains each sub-shape once -/

omit [DecidableEq Sh] in
theorem rebind_find (m : DMap Sh) (hm : IsDataMap key m) (x : Sh) (e : ℕ) :
    DMap.find key (m.foldl (fun a p => DMap.bind key a p.1 p.2) []) x = some e ↔ Bound key m x e := by
  suffices H : ∀ acc : DMap Sh, DMap.find key (m.foldl (fun a p => DMap.bind key a p.1 p.2) acc) x = some e ↔
      Bound key m x e ∨ ((∀ p ∈ m, key p.1 ≠ key x) ∧ DMap.find key acc x = some e) by
    rw [H []]
    simp [DMap.find]
  unfold Bound IsDataMap at *
  induction m with
  | nil => intro acc; simp
  | cons p m ih =>
    intro acc
    rw [List.map_cons, List.nodup_cons] at hm
    rw [List.foldl_cons, ih hm.2, dfind_bind]
    by_cases h : key x = key p.1
    · rw [if_pos h]
      have hn : ∀ q ∈ m, key q.1 ≠ key x := by
        intro q hq e'
        exact hm.1 (List.mem_map.2 ⟨q, hq, e'.trans h⟩)
      constructor
      · rintro (⟨q, hq, hk, rfl⟩ | ⟨-, he⟩)
        · exact absurd hk (hn q hq)
        · exact Or.inl ⟨p, by simp, h.symm, by simpa using he⟩
      · rintro (⟨q, hq, hk, rfl⟩ | ⟨hall, -⟩)
        · rcases List.mem_cons.1 hq with rfl | hq
          · exact Or.inr ⟨hn, rfl⟩
          · exact absurd hk (hn q hq)
        · exact absurd h.symm (hall p (by simp))
    · rw [if_neg h]
      have h' : ¬ key p.1 = key x := fun e => h e.symm
      simp [h']

omit [DecidableEq Sh] in
theorem merged_find (maps : ℕ → Option (DMap Sh)) (ids : List ℕ) (x : Sh) :
    (∀ e, DMap.find key (Builder.mergeMaps key maps ids 0 []) x = some e → MergedIndex key maps ids x e) ∧
    ((∃ d ∈ ids, ∃ v, Bound key ((maps d).getD []) x v) →
      (DMap.find key (Builder.mergeMaps key maps ids 0 []) x).isSome) := by
  obtain ⟨h1, h2⟩ := mergeMaps_spec key maps ids 0 []
  constructor
  · intro e he
    obtain ⟨p, hp, hk, rfl⟩ := dfind_mem key he
    rcases h1 p hp with h | ⟨pre, i, post, e1, y, hy, hk', e2⟩
    · simp at h
    · exact ⟨pre, i, post, e1, y.2, ⟨y, hy, hk'.trans hk, rfl⟩, by rw [e2, Nat.zero_add]; rfl⟩
  · rintro ⟨d, hd, v, y, hy, hk, rfl⟩
    exact h2 x (Or.inr ⟨d, hd, y, hy, hk⟩)

/-- Lists of indices of a property sort the shapes. -/
theorem listed_entities {w : BRepWriter Sh} (h : FaceInv key T w) (g i : ℕ) :
    i ∈ w.entityToFragments g ↔ ∃ x, At w.fmap i x ∧ DMap.find key w.indexMap x = some g := by
  rw [h.entities g, mem_indicesOf]
  simp only [decide_eq_true_eq, At, and_assoc]

theorem entities_nodup {w : BRepWriter Sh} (h : FaceInv key T w) (g : ℕ) :
    (w.entityToFragments g).Nodup := by
  rw [h.entities g]; exact indicesOf_nodup _ _

theorem ofNetwork_val {n : Network Sh} {w : BRepWriter Sh} (h : BRepWriter.ofNetwork key T n = .val w) :
    n.entityDim = 2 ∧ WriterSpec key T (fun _ _ => False) n.fragments w ∧
    w.indexMap = n.indexMap.foldl (fun m p => DMap.bind key m p.1 p.2) [] ∧
    w.intersections = BRepWriter.findIntersections key T (n.indexMap.map Prod.fst) := by
  unfold BRepWriter.ofNetwork at h
  by_cases hd : n.entityDim ≠ 2
  · rw [if_pos hd] at h; cases h
  · rw [if_neg hd] at h
    simp only [Outcome.val.injEq] at h
    subst h
    obtain ⟨h1, h2, h3⟩ := writer_spec key T (n.indexMap.map Prod.fst)
      (n.indexMap.foldl (fun m p => DMap.bind key m p.1 p.2) [])
      (BRepWriter.findIntersections key T (n.indexMap.map Prod.fst)) [] n.fragments
    refine ⟨not_not.1 hd, ?_, h2, h3⟩
    have e : (fun (d : ℕ) (y : Sh) => ∃ p ∈ ([] : List (ℕ × List Sh)), p.1 = d ∧ ∃ f ∈ p.2, y ∈ T.solids f)
        = fun _ _ => False := by funext d y; simp
    rw [e] at h1
    exact h1

/-- The compound of a network of entities consists of all vertices, edges, wires and faces of the network,
each of them once; the fragments of the entities are listed under their entity index, and under no other. -/
theorem C47_network (laws : Laws key T) (n : Network Sh) (hmap : IsDataMap key n.indexMap)
    (w : BRepWriter Sh) (h : BRepWriter.ofNetwork key T n = .val w) :
    ∃ vs es ws fs, w.compound = vs ++ es ++ ws ++ fs ∧
      Complete key T (Spec.BRep.ofNetwork n) vs es ws fs [] [] ∧
      SortedInto w.entityToFragments fs (Bound key n.indexMap) ∧
      (∀ i x e, At fs i x → Bound key n.indexMap x e → ∀ e', i ∈ w.entityToFragments e' ↔ e' = e) ∧
      ∀ d, w.domainToFragments d = [] := by
  obtain ⟨-, hw, hi, -⟩ := ofNetwork_val key T h
  have hc := writer_complete key T laws (c := Spec.BRep.ofNetwork n)
    (fun d x => by simp [SolidOf, Spec.BRep.ofNetwork]) (fun f => by rfl) hw
  have hso : w.somap = [] := by
    have := hc.2.2.2.2.2.2
    rw [← List.map_eq_nil_iff (f := key), List.eq_nil_iff_forall_not_mem]
    intro k hk
    obtain ⟨x, ⟨d, f, hf, -⟩, -⟩ := (this k).1 hk
    exact hf
  have hsh : w.shmap = [] := by
    rw [← List.map_eq_nil_iff (f := key), List.eq_nil_iff_forall_not_mem]
    intro k hk
    obtain ⟨x, hx, -⟩ := (hw.shClosed k).1 hk
    rw [hso] at hx
    simp at hx
  refine ⟨w.vmap, w.emap, w.wmap, w.fmap, ?_, ?_, fun g => ⟨entities_nodup key T hw.face g, fun i hi' => ?_⟩,
    fun i x e hx he e' => ?_, fun d => ?_⟩
  · unfold BRepWriter.compound; rw [hso, hsh]; simp
  · rw [hso, hsh] at hc; exact hc
  · obtain ⟨x, hx, e⟩ := (listed_entities key T hw.face g i).1 hi'
    rw [hi, rebind_find key _ hmap] at e
    exact ⟨x, hx, e⟩
  · rw [← rebind_find key _ hmap, ← hi] at he
    rw [listed_entities key T hw.face e' i]
    constructor
    · rintro ⟨y, hy, e2⟩
      have : y = x := by have := hy.2.symm.trans hx.2; simpa using this
      subst this
      rw [he] at e2
      simpa using e2.symm
    · rintro rfl; exact ⟨x, hx, he⟩
  · obtain ⟨l, h1, -, h3⟩ := hw.owners
    rw [hso, List.map_eq_nil_iff] at h1
    rw [h3 d, h1]; rfl

omit [DecidableEq Sh] in
theorem lookupAll_val {α : Type} (m : ℕ → Option α) (ids : List ℕ) {l : List (ℕ × α)}
    (h : BRepWriter.lookupAll m ids = .val l) :
    l.map Prod.fst = ids ∧ (∀ p ∈ l, m p.1 = some p.2) ∧ ∀ i ∈ ids, ∀ a, m i = some a → (i, a) ∈ l := by
  induction ids generalizing l with
  | nil =>
    simp only [BRepWriter.lookupAll, Outcome.val.injEq] at h
    subst h
    simp
  | cons i t ih =>
    simp only [BRepWriter.lookupAll] at h
    cases hm : m i with
    | none => rw [hm] at h; cases h
    | some a =>
      rw [hm] at h
      simp only at h
      obtain ⟨r, hr, h'⟩ := Outcome.bind_eq_val.1 h
      simp only [Outcome.pure_eq, Outcome.val.injEq] at h'
      subst h'
      obtain ⟨h1, h2, h3⟩ := ih hr
      refine ⟨by rw [List.map_cons, h1], ?_, ?_⟩
      · intro p hp
        rcases List.mem_cons.1 hp with rfl | hp
        · exact hm
        · exact h2 p hp
      · intro j hj b hb
        rcases List.mem_cons.1 hj with rfl | hj
        · rw [hm] at hb; simp at hb; subst hb; simp
        · exact List.mem_cons_of_mem _ (h3 j hj b hb)

theorem ofContained_val {ids : List ℕ} {n : ContainedNetwork Sh} {w : BRepWriter Sh}
    (h : BRepWriter.ofContained key T ids n = .val w) :
    n.entityDim = 2 ∧ n.domainDim = 3 ∧ ∃ frags : List Sh,
      (∀ f, f ∈ frags ↔ (Spec.BRep.ofContained ids n).entity f) ∧
      WriterSpec key T (SolidOf T (Spec.BRep.ofContained ids n)) frags w ∧
    w.indexMap = Builder.mergeMaps key n.indexMaps ids 0 [] ∧
    ∃ maps, BRepWriter.lookupAll n.indexMaps ids = .val maps ∧
      w.intersections = BRepWriter.findIntersections key T (maps.flatMap fun p => p.2.map Prod.fst) := by
  unfold BRepWriter.ofContained at h
  by_cases hd : n.entityDim ≠ 2
  · rw [if_pos hd] at h; cases h
  · rw [if_neg hd] at h
    by_cases hd' : n.domainDim ≠ n.entityDim + 1
    · rw [if_pos hd'] at h; cases h
    · rw [if_neg hd'] at h
      obtain ⟨maps, hm, h⟩ := Outcome.bind_eq_val.1 h
      simp only at h
      obtain ⟨ds, hds, h⟩ := Outcome.bind_eq_val.1 h
      obtain ⟨fs, hfs, h⟩ := Outcome.bind_eq_val.1 h
      simp only [Outcome.pure_eq, Outcome.val.injEq] at h
      subst h
      obtain ⟨d1, d2, d3⟩ := lookupAll_val _ _ hds
      obtain ⟨f1, f2, f3⟩ := lookupAll_val _ _ hfs
      obtain ⟨h1, h2, h3⟩ := writer_spec key T (maps.flatMap fun p => p.2.map Prod.fst)
        (Builder.mergeMaps key n.indexMaps ids 0 [])
        (BRepWriter.findIntersections key T (maps.flatMap fun p => p.2.map Prod.fst)) ds (fs.flatMap Prod.snd)
      refine ⟨not_not.1 hd, by have := not_not.1 hd; have := not_not.1 hd'; omega, fs.flatMap Prod.snd, ?_, ?_,
        h2, maps, hm, h3⟩
      · intro f
        simp only [List.mem_flatMap, Spec.BRep.ofContained]
        constructor
        · rintro ⟨p, hp, hf⟩
          exact ⟨p.1, by rw [← f1]; exact List.mem_map_of_mem hp, p.2, f2 p hp, hf⟩
        · rintro ⟨d, hd, l, hl, hf⟩
          exact ⟨(d, l), f3 d hd l hl, hf⟩
      · have e : (fun (d : ℕ) (y : Sh) => ∃ p ∈ ds, p.1 = d ∧ ∃ f ∈ p.2, y ∈ T.solids f)
            = SolidOf T (Spec.BRep.ofContained ids n) := by
          funext d y
          simp only [SolidOf, Spec.BRep.ofContained, eq_iff_iff]
          constructor
          · rintro ⟨p, hp, rfl, f, hf, hy⟩
            exact ⟨f, ⟨by rw [← d1]; exact List.mem_map_of_mem hp, p.2, d2 p hp, hf⟩, hy⟩
          · rintro ⟨f, ⟨hd, l, hl, hf⟩, hy⟩
            exact ⟨(d, l), d3 d hd l hl, rfl, f, hf, hy⟩
        rw [e] at h1
        exact h1

/-- The compound of a contained network consists of all sub-shapes of the network, each of them once.  Each
solid is listed for exactly one sub-domain, and is a solid of it.  Faces of entities are listed under exactly
one entity index. -/
theorem C47_contained (laws : Laws key T) (ids : List ℕ) (n : ContainedNetwork Sh)
    (w : BRepWriter Sh) (h : BRepWriter.ofContained key T ids n = .val w) :
    ∃ vs es ws fs shs sos, w.compound = vs ++ es ++ ws ++ fs ++ shs ++ sos ∧
      Complete key T (Spec.BRep.ofContained ids n) vs es ws fs shs sos ∧
      SortedInto w.entityToFragments fs (MergedIndex key n.indexMaps ids) ∧
      (∀ i x, At fs i x → (∃ d ∈ ids, ∃ v, Bound key ((n.indexMaps d).getD []) x v) →
        ∃! e, i ∈ w.entityToFragments e) ∧
      SortedInto w.domainToFragments sos (fun x d => SolidOf T (Spec.BRep.ofContained ids n) d x) ∧
      ∀ i x, At sos i x → ∃! d, i ∈ w.domainToFragments d := by
  obtain ⟨-, -, frags, hfr, hw, hi, -⟩ := ofContained_val key T h
  have hc := writer_complete key T laws (c := Spec.BRep.ofContained ids n)
    (fun d x => Iff.rfl) hfr hw
  obtain ⟨l, l1, l2, l3⟩ := hw.owners
  refine ⟨w.vmap, w.emap, w.wmap, w.fmap, w.shmap, w.somap, rfl, hc,
    fun g => ⟨entities_nodup key T hw.face g, fun i hi' => ?_⟩, fun i x hx hb => ?_,
    fun g => ⟨by rw [l3]; exact indicesOf_nodup _ _, fun i hi' => ?_⟩, fun i x hx => ?_⟩
  · obtain ⟨x, hx, e⟩ := (listed_entities key T hw.face g i).1 hi'
    rw [hi] at e
    exact ⟨x, hx, (merged_find key _ _ x).1 g e⟩
  · obtain ⟨e, he⟩ := Option.isSome_iff_exists.1 ((merged_find key _ _ x).2 hb)
    rw [← hi] at he
    refine ⟨e, (listed_entities key T hw.face e i).2 ⟨x, hx, he⟩, fun e' he' => ?_⟩
    obtain ⟨y, hy, e2⟩ := (listed_entities key T hw.face e' i).1 he'
    have : y = x := by have := hy.2.symm.trans hx.2; simpa using this
    subst this
    rw [he] at e2
    simpa using e2.symm
  · rw [l3, mem_indicesOf] at hi'
    obtain ⟨p, h1, h2, h3⟩ := hi'
    simp only [decide_eq_true_eq] at h3
    refine ⟨p.2, ⟨h1, ?_⟩, ?_⟩
    · rw [← l1, List.getElem?_map, h2]; rfl
    · rw [← h3]; exact l2 p (List.mem_of_getElem? h2)
  · obtain ⟨h1, h2⟩ := hx
    rw [← l1, List.getElem?_map, Option.map_eq_some_iff] at h2
    obtain ⟨p, hp, rfl⟩ := h2
    refine ⟨p.1, ?_, fun d hd => ?_⟩
    · show i ∈ w.domainToFragments p.1
      rw [l3, mem_indicesOf]; exact ⟨p, h1, hp, by simp⟩
    · simp only [l3, mem_indicesOf] at hd
      obtain ⟨q, -, hq, e⟩ := hd
      rw [hp, Option.some.injEq] at hq
      subst hq
      exact (by simpa using e : p.1 = d).symm

end
end Props
