import Verif.Props.BRepWriter

/-!
# Exported intersections: C48
-/

namespace Props
open Verif Frackit Spec.BRep
open Frackit.Builder (Network ContainedNetwork)

section
variable {Sh K : Type} [DecidableEq Sh] [DecidableEq K] (key : Sh → K) (T : Topo Sh)

/-- The edge of `f` is shared with `g`. -/
def SharedBy (f g e : Sh) : Prop := key f ≠ key g ∧ e ∈ T.edges f ∧ ∃ e2 ∈ T.edges g, key e2 = key e

/-- Intersections after the pairs in `S` have been processed. -/
structure IsInv (S : Sh → Sh → Prop) (L : List (List Sh)) : Prop where
  sound : ∀ l ∈ L, l ≠ [] ∧ ∀ e ∈ l, ∃ f g, S f g ∧ SharedBy key T f g e
  disj : L.Pairwise List.Disjoint
  all : ∀ f g e, S f g → SharedBy key T f g e → ∃ l ∈ L, e ∈ l

omit [DecidableEq K] in
theorem filter_le_one {L : List (List Sh)} (h : L.Pairwise List.Disjoint) (e : Sh) :
    (L.filter fun l => e ∈ l).length ≤ 1 := by
  induction L with
  | nil => simp
  | cons l L ih =>
    rw [List.pairwise_cons] at h
    by_cases hl : e ∈ l
    · have h0 : L.filter (fun l => decide (e ∈ l)) = [] := by
        rw [List.filter_eq_nil_iff]
        intro l' hl' he
        exact h.1 l' hl' hl (by simpa using he)
      rw [List.filter_cons_of_pos (by simpa using hl), h0]
      simp
    · rw [List.filter_cons_of_neg (by simpa using hl)]
      exact ih h.2

theorem mem_handled (L : List (List Sh)) (edges : List Sh) (i : ℕ) :
    i ∈ BRepWriter.handled L edges ↔ ∃ e, edges[i]? = some e ∧ ∃ l ∈ L, e ∈ l := by
  unfold BRepWriter.handled
  simp only [List.mem_flatMap, List.mem_range, List.mem_map, List.mem_filter]
  constructor
  · rintro ⟨j, hj, l, ⟨hl, hx⟩, rfl⟩
    rw [List.getElem?_eq_getElem hj] at hx ⊢
    exact ⟨_, rfl, l, hl, by simpa using hx⟩
  · rintro ⟨e, he, l, hl, hx⟩
    refine ⟨i, (List.getElem?_eq_some_iff.1 he).1, l, ⟨hl, ?_⟩, rfl⟩
    rw [he]
    simpa using hx

theorem handled_length {L : List (List Sh)} (h : L.Pairwise List.Disjoint) (edges : List Sh) :
    (BRepWriter.handled L edges).length = edges.length ↔ ∀ e ∈ edges, ∃ l ∈ L, e ∈ l := by
  have key1 : ∀ edges : List Sh, (BRepWriter.handled L edges).length
      = (edges.map fun e => (L.filter fun l => e ∈ l).length).sum := by
    intro edges
    unfold BRepWriter.handled
    rw [List.length_flatMap]
    congr 1
    refine List.ext_getElem (by simp) fun i h1 h2 => ?_
    simp only [List.length_map, List.length_range] at h1
    simp only [List.getElem_map, List.getElem_range, List.length_map]
    rw [List.getElem?_eq_getElem h1]
    simp
  have one : ∀ e, (L.filter fun l => e ∈ l).length = 1 ↔ ∃ l ∈ L, e ∈ l := by
    intro e
    have h1 := filter_le_one h e
    have h2 : 0 < (L.filter fun l => decide (e ∈ l)).length ↔ ∃ l ∈ L, e ∈ l := by
      rw [List.length_pos_iff_exists_mem]
      simp
    rw [← h2]
    omega
  have bound : ∀ edges : List Sh, (edges.map fun e => (L.filter fun l => e ∈ l).length).sum ≤ edges.length := by
    intro edges
    induction edges with
    | nil => simp
    | cons e es ih =>
      have := filter_le_one h e
      simp only [List.map_cons, List.sum_cons, List.length_cons]
      omega
  rw [key1]
  induction edges with
  | nil => simp
  | cons e es ih =>
    have h1 := filter_le_one h e
    have h2 := bound es
    have h3 := one e
    simp only [List.map_cons, List.sum_cons, List.length_cons, List.forall_mem_cons]
    constructor
    · intro hh
      exact ⟨h3.1 (by omega), ih.1 (by omega)⟩
    · rintro ⟨a, b⟩
      have := h3.2 a
      have := ih.2 b
      omega

omit [DecidableEq Sh] in
theorem mem_overlapEdges (f g e : Sh) :
    e ∈ BRepWriter.overlapEdges key T f g ↔ e ∈ T.edges f ∧ ∃ e2 ∈ T.edges g, key e2 = key e := by
  unfold BRepWriter.overlapEdges
  rw [List.mem_filter]
  simp

omit [DecidableEq Sh] in
theorem mem_new (edges : List Sh) (h : List ℕ) (e : Sh) :
    e ∈ ((List.range edges.length).filter fun i => i ∉ h).filterMap (fun i => edges[i]?)
      ↔ ∃ i, i ∉ h ∧ edges[i]? = some e := by
  simp only [List.mem_filterMap, List.mem_filter, List.mem_range, decide_eq_true_eq]
  constructor
  · rintro ⟨i, ⟨-, hi⟩, he⟩; exact ⟨i, hi, he⟩
  · rintro ⟨i, hi, he⟩; exact ⟨i, ⟨(List.getElem?_eq_some_iff.1 he).1, hi⟩, he⟩

theorem addIntersections_inv {S : Sh → Sh → Prop} {L : List (List Sh)} (h : IsInv key T S L) (f g : Sh) :
    IsInv key T (fun a b => S a b ∨ (a = f ∧ b = g)) (BRepWriter.addIntersections key T L f g) := by
  have mono : ∀ l ∈ L, l ≠ [] ∧ ∀ e ∈ l, ∃ a b, (S a b ∨ (a = f ∧ b = g)) ∧ SharedBy key T a b e := by
    intro l hl
    refine ⟨(h.sound l hl).1, fun e he => ?_⟩
    obtain ⟨a, b, h1, h2⟩ := (h.sound l hl).2 e he
    exact ⟨a, b, Or.inl h1, h2⟩
  unfold BRepWriter.addIntersections
  by_cases hk : key f = key g
  · rw [if_pos hk]
    refine ⟨mono, h.disj, ?_⟩
    rintro a b e (hs | ⟨rfl, rfl⟩) he
    · exact h.all a b e hs he
    · exact absurd hk he.1
  · rw [if_neg hk]
    simp only
    by_cases hl : (BRepWriter.handled L (BRepWriter.overlapEdges key T f g)).length
        ≠ (BRepWriter.overlapEdges key T f g).length
    · rw [if_pos hl]
      have hmem : ∀ e, e ∈ ((List.range (BRepWriter.overlapEdges key T f g).length).filter
          fun i => i ∉ BRepWriter.handled L (BRepWriter.overlapEdges key T f g)).filterMap
            (fun i => (BRepWriter.overlapEdges key T f g)[i]?) ↔
          e ∈ BRepWriter.overlapEdges key T f g ∧ ∀ l ∈ L, e ∉ l := by
        intro e
        rw [mem_new]
        constructor
        · rintro ⟨i, hi, he⟩
          refine ⟨List.mem_of_getElem? he, fun l hl' hel => hi ?_⟩
          rw [mem_handled]
          exact ⟨e, he, l, hl', hel⟩
        · rintro ⟨he, hn⟩
          obtain ⟨i, hi⟩ := List.mem_iff_getElem?.1 he
          refine ⟨i, fun hh => ?_, hi⟩
          rw [mem_handled] at hh
          obtain ⟨e', he', l, hl', hel⟩ := hh
          rw [hi, Option.some.injEq] at he'
          subst he'
          exact hn l hl' hel
      refine ⟨?_, ?_, ?_⟩
      · intro l hl'
        rcases List.mem_append.1 hl' with hl' | hl'
        · exact mono l hl'
        · rw [List.mem_singleton] at hl'
          subst hl'
          constructor
          · intro h0
            apply hl
            rw [handled_length h.disj]
            intro e he
            by_contra hn
            have : e ∈ ([] : List Sh) := by
              rw [← h0, hmem]
              exact ⟨he, fun l hl' hel => hn ⟨l, hl', hel⟩⟩
            simp at this
          · intro e he
            rw [hmem, mem_overlapEdges] at he
            exact ⟨f, g, Or.inr ⟨rfl, rfl⟩, hk, he.1⟩
      · rw [List.pairwise_append]
        refine ⟨h.disj, by simp, ?_⟩
        intro l hl' l2 hl2
        rw [List.mem_singleton] at hl2
        subst hl2
        intro e he he'
        exact ((hmem e).1 he').2 l hl' he
      · rintro a b e (hs | ⟨rfl, rfl⟩) he
        · obtain ⟨l, hl', h'⟩ := h.all a b e hs he
          exact ⟨l, List.mem_append_left _ hl', h'⟩
        · by_cases hex : ∃ l ∈ L, e ∈ l
          · obtain ⟨l, hl', h'⟩ := hex
            exact ⟨l, List.mem_append_left _ hl', h'⟩
          · refine ⟨_, List.mem_append_right _ (List.mem_singleton.2 rfl), ?_⟩
            rw [hmem, mem_overlapEdges]
            exact ⟨he.2, fun l hl' hel => hex ⟨l, hl', hel⟩⟩
    · rw [if_neg hl]
      rw [not_not, handled_length h.disj] at hl
      refine ⟨mono, h.disj, ?_⟩
      rintro a b e (hs | ⟨rfl, rfl⟩) he
      · exact h.all a b e hs he
      · exact hl e ((mem_overlapEdges key T _ _ e).2 he.2)

omit [DecidableEq Sh] [DecidableEq K] in
theorem isInv_congr {S S' : Sh → Sh → Prop} (h : ∀ a b, S a b ↔ S' a b) {L : List (List Sh)}
    (hw : IsInv key T S L) : IsInv key T S' L := by
  have : S = S' := by funext d x; exact propext (h d x)
  exact this ▸ hw

theorem inner_inv (f : Sh) (gs : List Sh) {S : Sh → Sh → Prop} {L : List (List Sh)} (h : IsInv key T S L) :
    IsInv key T (fun a b => S a b ∨ (a = f ∧ b ∈ gs))
      (gs.foldl (fun lists g => BRepWriter.addIntersections key T lists f g) L) := by
  induction gs generalizing S L with
  | nil => exact isInv_congr key T (fun a b => by simp) h
  | cons g gs ih =>
    rw [List.foldl_cons]
    refine isInv_congr key T (fun a b => ?_) (ih (addIntersections_inv key T h f g))
    simp only [List.mem_cons]
    tauto

theorem findIntersections_inv (ents : List Sh) :
    IsInv key T (fun a b => a ∈ ents ∧ b ∈ ents) (BRepWriter.findIntersections key T ents) := by
  unfold BRepWriter.findIntersections
  suffices H : ∀ (fs : List Sh) (S : Sh → Sh → Prop) (L : List (List Sh)), IsInv key T S L →
      IsInv key T (fun a b => S a b ∨ (a ∈ fs ∧ b ∈ ents))
        (fs.foldl (fun lists f => ents.foldl (fun lists g => BRepWriter.addIntersections key T lists f g) lists) L) by
    refine isInv_congr key T (fun a b => ?_) (H ents (fun _ _ => False) [] ⟨by simp, by simp, by simp⟩)
    simp
  intro fs
  induction fs with
  | nil => intro S L h; exact isInv_congr key T (fun a b => by simp) h
  | cons f fs ih =>
    intro S L h
    rw [List.foldl_cons]
    refine isInv_congr key T (fun a b => ?_) (ih _ _ (inner_inv key T f ents h))
    simp only [List.mem_cons]
    tauto

/-! ## C48 Each intersection edge is exported once -/

/-- What holds for the exported intersections of the given entities. -/
structure IsExported (entity : Sh → Prop) (w : BRepWriter Sh) : Prop where
  /-- Only edges shared by two entities are listed. -/
  sound : ∀ g, ∀ i ∈ w.intersectionsToFragments g, ∃ x, At w.emap i x ∧ SharedEdge key T entity (key x)
  /-- No edge is listed twice. -/
  once : ∀ g g' i, i ∈ w.intersectionsToFragments g → i ∈ w.intersectionsToFragments g' → g = g'
  nodup : ∀ g, (w.intersectionsToFragments g).Nodup
  /-- Shared edges are listed, if an entity has them in the orientation in which they are part of the
  compound. -/
  complete : ∀ i x, At w.emap i x → SharedEdge key T entity (key x) → (∃ f, entity f ∧ x ∈ T.edges f) →
    ∃ g, i ∈ w.intersectionsToFragments g

theorem exported {ents : List Sh} {entity : Sh → Prop} (hent : ∀ f, f ∈ ents ↔ entity f)
    {w : BRepWriter Sh} (hw : EdgeInv key T w)
    (hi : w.intersections = BRepWriter.findIntersections key T ents) : IsExported key T entity w := by
  have hL := findIntersections_inv key T ents
  rw [← hi] at hL
  have hmem : ∀ g i, i ∈ w.intersectionsToFragments g ↔
      ∃ k, g = k + 1 ∧ ∃ x, At w.emap i x ∧ ∃ l, w.intersections[k]? = some l ∧ x ∈ l := by
    intro g i
    cases g with
    | zero => rw [hw.isZero]; simp
    | succ k =>
      rw [hw.isLists k, mem_indicesOf]
      constructor
      · rintro ⟨x, h1, h2, h3⟩
        cases hl : w.intersections[k]? with
        | none => rw [hl] at h3; simp at h3
        | some l =>
          rw [hl] at h3
          exact ⟨k, rfl, x, ⟨h1, h2⟩, l, hl, by simpa using h3⟩
      · rintro ⟨k', hk, x, ⟨h1, h2⟩, l, hl, hx⟩
        obtain rfl : k' = k := by omega
        refine ⟨x, h1, h2, ?_⟩
        rw [hl]
        simpa using hx
  refine ⟨fun g i hg => ?_, fun g g' i hg hg' => ?_, fun g => ?_, fun i x hx hs hf => ?_⟩
  · obtain ⟨k, -, x, hx, l, hl, hxl⟩ := (hmem g i).1 hg
    obtain ⟨a, b, ⟨ha, hb⟩, hk, he, e2, he2, hk2⟩ := (hL.sound l (List.mem_of_getElem? hl)).2 x hxl
    exact ⟨x, hx, a, b, (hent a).1 ha, (hent b).1 hb, hk, ⟨x, he, rfl⟩, e2, he2, hk2⟩
  · obtain ⟨k, rfl, x, hx, l, hl, hxl⟩ := (hmem g i).1 hg
    obtain ⟨k', rfl, x', hx', l', hl', hxl'⟩ := (hmem g' i).1 hg'
    have e : x' = x := by have := hx'.2.symm.trans hx.2; simpa using this
    subst e
    by_contra hne
    have hd := List.pairwise_iff_getElem.1 hL.disj
    obtain ⟨h1, e1⟩ := List.getElem?_eq_some_iff.1 hl
    obtain ⟨h2, e2⟩ := List.getElem?_eq_some_iff.1 hl'
    rcases Nat.lt_trichotomy k k' with hlt | rfl | hlt
    · have := hd k k' h1 h2 hlt
      rw [e1, e2] at this
      exact this hxl hxl'
    · exact hne rfl
    · have := hd k' k h2 h1 hlt
      rw [e1, e2] at this
      exact this hxl' hxl
  · cases g with
    | zero => rw [hw.isZero]; exact List.nodup_nil
    | succ k => rw [hw.isLists k]; exact indicesOf_nodup _ _
  · obtain ⟨f, hf, hxf⟩ := hf
    obtain ⟨a, b, ha, hb, hab, ⟨ea, hea, ka⟩, eb, heb, kb⟩ := hs
    have hsh : ∃ c, entity c ∧ SharedBy key T f c x := by
      by_cases hfa : key f = key a
      · exact ⟨b, hb, by rw [hfa]; exact hab, hxf, eb, heb, kb⟩
      · exact ⟨a, ha, hfa, hxf, ea, hea, ka⟩
    obtain ⟨c, hc, hsh⟩ := hsh
    obtain ⟨l, hl, hxl⟩ := hL.all f c x ⟨(hent f).2 hf, (hent c).2 hc⟩ hsh
    obtain ⟨k, hk⟩ := List.mem_iff_getElem?.1 hl
    exact ⟨k + 1, (hmem _ _).2 ⟨k, rfl, x, hx, l, hk, hxl⟩⟩

/-- Intersections of a contained network: all listed edges are shared by two entities, no edge is listed twice,
and a shared edge is listed if its orientation in the compound is the one it has in one of the entities.
(Missing: shared edges that were added to the compound in the other orientation, see `C48_disproof`.) -/
theorem C48_contained_partial (ids : List ℕ) (n : ContainedNetwork Sh) (w : BRepWriter Sh)
    (h : BRepWriter.ofContained key T ids n = .val w) :
    IsExported key T (EntityOfContained ids n) w := by
  obtain ⟨-, -, frags, -, hw, -, maps, hm, hi⟩ := ofContained_val key T h
  obtain ⟨m1, m2, m3⟩ := lookupAll_val _ _ hm
  refine exported key T (fun f => ?_) hw.face.wire.edge hi
  simp only [List.mem_flatMap, EntityOfContained]
  constructor
  · rintro ⟨p, hp, hf⟩
    exact ⟨p.1, by rw [← m1]; exact List.mem_map_of_mem hp, p.2, m2 p hp, hf⟩
  · rintro ⟨d, hd, m, hmd, hf⟩
    exact ⟨(d, m), m3 d hd m hmd, hf⟩

/-- Intersections of an uncontained network, as for contained ones. -/
theorem C48_network_partial (n : Network Sh) (w : BRepWriter Sh)
    (h : BRepWriter.ofNetwork key T n = .val w) : IsExported key T (EntityOf n) w := by
  obtain ⟨-, hw, -, hi⟩ := ofNetwork_val key T h
  exact exported key T (fun f => Iff.rfl) hw.face.wire.edge hi

/-- In an uncontained network of faces that are oriented forward, each edge shared by two fragments is listed
in exactly one intersection. -/
theorem C48_forward (hedges : EdgesOfWires T) (n : Network Sh)
    (hfw : ∀ f ∈ n.fragments, T.faces f = [f] ∧ T.forward f = f ∧ EntityOf n f) (w : BRepWriter Sh)
    (h : BRepWriter.ofNetwork key T n = .val w) (i : ℕ) (x : Sh) (hx : At w.emap i x) :
    (∃! g, i ∈ w.intersectionsToFragments g) ↔ SharedEdge key T (EntityOf n) (key x) := by
  have hex := C48_network_partial key T n w h
  obtain ⟨-, hw, -, hi⟩ := ofNetwork_val key T h
  constructor
  · rintro ⟨g, hg, -⟩
    obtain ⟨y, hy, hs⟩ := hex.sound g i hg
    have e : y = x := by have := hy.2.symm.trans hx.2; simpa using this
    exact e ▸ hs
  · intro hs
    obtain ⟨f, hf, wi, hwi, hxe⟩ := hw.face.seen x (List.mem_of_getElem? hx.2)
    have hff : f ∈ n.fragments := by
      unfold BRepWriter.ofNetwork at h
      by_cases hd : n.entityDim ≠ 2
      · rw [if_pos hd] at h; cases h
      · rw [if_neg hd] at h
        simp only [Outcome.val.injEq] at h
        have hinv := start_inv key T (n.indexMap.map Prod.fst)
          (n.indexMap.foldl (fun m p => DMap.bind key m p.1 p.2) [])
          (BRepWriter.findIntersections key T (n.indexMap.map Prod.fst))
        obtain ⟨-, -, ⟨l, e, hl⟩, -⟩ := addNetwork_spec key T n.fragments _ hinv.shell.face
        rw [h] at e
        rw [e] at hf
        have hf : f ∈ l := by simpa [BRepWriter.start, BRepWriter.empty] using hf
        obtain ⟨g, hg, hfg⟩ := hl f hf
        rw [(hfw g hg).1, List.mem_singleton] at hfg
        exact hfg ▸ hg
    obtain ⟨h1, h2, h3⟩ := hfw f hff
    rw [h2] at hwi
    have hxf : x ∈ T.edges f := (hedges f (by rw [h1]; simp) x).2 ⟨wi, hwi, hxe⟩
    obtain ⟨g, hg⟩ := hex.complete i x hx hs ⟨f, h3, hxf⟩
    exact ⟨g, hg, fun g' hg' => hex.once g' g i hg' hg⟩

end

/-! ### A shared edge that is not exported -/

/-- The full claim for contained networks. -/
def C48_full : Prop :=
  ∀ (Sh K : Type) [DecidableEq Sh] [DecidableEq K] (key : Sh → K) (T : Topo Sh) (_ : Laws key T)
    (_ : EdgesOfWires T) (ids : List ℕ) (n : ContainedNetwork Sh) (w : BRepWriter Sh),
    BRepWriter.ofContained key T ids n = .val w →
    ∀ i x, At w.emap i x → SharedEdge key T (EntityOfContained ids n) (key x) →
      ∃! g, i ∈ w.intersectionsToFragments g

/-- Sub-shapes by a table for forward shapes; orientations are composed. -/
def subShapes (tbl : ℕ → List (ℕ × Bool)) (s : ℕ × Bool) : List (ℕ × Bool) :=
  (tbl s.1).map fun p => (p.1, s.2 == p.2)

theorem subShapes_congr (tbl : ℕ → List (ℕ × Bool)) (s t : ℕ × Bool) (h : s.1 = t.1) :
    ∀ x ∈ subShapes tbl s, ∃ y ∈ subShapes tbl t, y.1 = x.1 := by
  intro x hx
  obtain ⟨p, hp, rfl⟩ := List.mem_map.1 hx
  rw [h] at hp
  exact ⟨_, List.mem_map_of_mem hp, rfl⟩

/-- Topology made of tables. -/
def tableTopo (so sh fa wi ed ve : ℕ → List (ℕ × Bool)) : Topo (ℕ × Bool) where
  solids := subShapes so
  shells := subShapes sh
  faces := subShapes fa
  wires := subShapes wi
  edges := subShapes ed
  vertices := subShapes ve
  forward s := (s.1, true)

theorem tableTopo_laws (so sh fa wi ed ve : ℕ → List (ℕ × Bool)) :
    Laws Prod.fst (tableTopo so sh fa wi ed ve) := by
  refine ⟨fun s => rfl, ?_⟩
  intro explore hex s t h
  simp only [tableTopo, List.mem_cons, List.not_mem_nil, or_false] at hex
  rcases hex with rfl | rfl | rfl | rfl | rfl | rfl <;> exact subShapes_congr _ s t h

/-- Solid 1 with shell 2; its face 3 contains edge 20 in reverse orientation.  The entity fragments 5 and 6
meet the boundary along that edge, which is forward in both of them. -/
def cornerTopo : Topo (ℕ × Bool) :=
  tableTopo
    (fun i => if i = 1 then [(1, true)] else [])
    (fun i => if i = 1 ∨ i = 2 then [(2, true)] else [])
    (fun i => if i = 1 ∨ i = 2 ∨ i = 3 then [(3, true)] else if i = 5 then [(5, true)]
      else if i = 6 then [(6, true)] else [])
    (fun i => if i = 1 ∨ i = 2 ∨ i = 3 ∨ i = 4 then [(4, true)] else if i = 5 ∨ i = 7 then [(7, true)]
      else if i = 6 ∨ i = 8 then [(8, true)] else [])
    (fun i => if i = 1 ∨ i = 2 ∨ i = 3 ∨ i = 4 then [(20, false)]
      else if i = 5 ∨ i = 7 ∨ i = 6 ∨ i = 8 ∨ i = 20 then [(20, true)] else [])
    (fun i => if i ≤ 8 ∨ i = 20 then [(30, true), (31, true)] else [])

/-- Contained network of the two entity fragments. -/
def cornerNetwork : ContainedNetwork (ℕ × Bool) where
  entityDim := 2
  domainDim := 3
  subDomainFragments := fun i => if i = 1 then some [(1, true)] else none
  entityFragments := fun i => if i = 1 then some [(5, true), (6, true)] else none
  indexMaps := fun i => if i = 1 then some [((5, true), 1), ((6, true), 2)] else none

theorem corner_edges : EdgesOfWires cornerTopo := by
  rintro ⟨f, o⟩ hf e
  have hf' : f = 3 ∨ f = 5 ∨ f = 6 := by
    simp only [cornerTopo, tableTopo, subShapes] at hf
    split_ifs at hf <;> simp_all
  rcases hf' with rfl | rfl | rfl <;> cases o <;> simp [cornerTopo, tableTopo, subShapes] <;> grind

theorem corner_val : ∃ w, BRepWriter.ofContained Prod.fst cornerTopo [1] cornerNetwork = .val w ∧
    w.emap = [(20, false)] ∧ w.intersections = [[(20, true)]] ∧ w.fmap = [(3, true), (5, true), (6, true)] :=
  ⟨_, rfl, by decide, by decide, by decide⟩

theorem C48_disproof : ¬ C48_full := by
  intro h
  obtain ⟨w, hw, he, hi, -⟩ := corner_val
  obtain ⟨g, hg, -⟩ := h _ _ Prod.fst cornerTopo (tableTopo_laws _ _ _ _ _ _) corner_edges [1] cornerNetwork w hw
    1 (20, false) ⟨le_refl 1, by rw [he]; rfl⟩ ⟨(5, true), (6, true), ⟨1, by simp, _, rfl, by decide⟩,
      ⟨1, by simp, _, rfl, by decide⟩, by decide, ⟨(20, true), by decide, rfl⟩, (20, true), by decide, rfl⟩
  obtain ⟨-, -, frags, -, hs, -⟩ := ofContained_val Prod.fst cornerTopo hw
  cases g with
  | zero => rw [hs.face.wire.edge.isZero] at hg; simp at hg
  | succ k =>
    rw [hs.face.wire.edge.isLists k, he, hi] at hg
    cases k with
    | zero => revert hg; decide
    | succ k => simp [indicesOf] at hg

/-- Two faces that share an edge and have further edges. -/
def pairTopo : Topo (ℕ × Bool) :=
  tableTopo (fun _ => []) (fun _ => [])
    (fun i => if i = 5 then [(5, true)] else if i = 6 then [(6, true)] else [])
    (fun i => if i = 5 then [(7, true)] else if i = 6 then [(8, true)] else [])
    (fun i => if i = 5 ∨ i = 7 then [(21, true), (20, true)]
      else if i = 6 ∨ i = 8 then [(20, false), (22, true)] else [])
    (fun i => if i = 20 then [(30, true), (31, true)] else if i = 21 ∨ i = 22 then [(31, true), (30, true)]
      else [])

/-- Network of the two faces. -/
def pairNetwork : Network (ℕ × Bool) where
  entityDim := 2
  fragments := [(5, true), (6, true)]
  indexMap := [((5, true), 1), ((6, true), 2)]

/-- The hypotheses of `C47_network` and `C48_forward` are met, and an edge is shared. -/
example : Laws Prod.fst pairTopo ∧ EdgesOfWires pairTopo ∧ IsDataMap Prod.fst pairNetwork.indexMap ∧
    (∀ f ∈ pairNetwork.fragments, pairTopo.faces f = [f] ∧ pairTopo.forward f = f ∧ EntityOf pairNetwork f) ∧
    (∃ w, BRepWriter.ofNetwork Prod.fst pairTopo pairNetwork = .val w ∧ At w.emap 2 (20, true) ∧
      w.intersectionsToFragments 1 = [2]) ∧
    SharedEdge Prod.fst pairTopo (EntityOf pairNetwork) 20 := by
  refine ⟨tableTopo_laws _ _ _ _ _ _, ?_, by unfold IsDataMap; decide, ?_, ⟨_, rfl, ⟨by decide, by decide⟩, by decide⟩,
    (5, true), (6, true), by unfold EntityOf; decide, by unfold EntityOf; decide, by decide,
    ⟨(20, true), by decide, rfl⟩, (20, false), by decide, rfl⟩
  · rintro ⟨f, o⟩ hf e
    have hf' : f = 5 ∨ f = 6 := by
      simp only [pairTopo, tableTopo, subShapes] at hf
      split_ifs at hf <;> simp_all
    rcases hf' with rfl | rfl <;> cases o <;> simp [pairTopo, tableTopo, subShapes] <;> grind
  · intro f hf
    simp only [pairNetwork, List.mem_cons, List.not_mem_nil, or_false] at hf
    rcases hf with rfl | rfl
    · exact ⟨by decide, rfl, by unfold EntityOf; decide⟩
    · exact ⟨by decide, rfl, by unfold EntityOf; decide⟩

/-- The hypotheses of `C47_contained` and `C48_contained_partial` are met. -/
example : Laws Prod.fst cornerTopo ∧
    ∃ w, BRepWriter.ofContained Prod.fst cornerTopo [1] cornerNetwork = .val w ∧
      w.entityToFragments 1 = [2] ∧ w.entityToFragments 2 = [3] ∧ w.domainToFragments 1 = [1] ∧
      w.compound.length = 11 :=
  ⟨tableTopo_laws _ _ _ _ _ _, _, rfl, by decide, by decide, by decide, by decide⟩

end Props
