import Verif.Spec.Topology
import Mathlib.Data.List.Rotate
import Mathlib.Tactic.IntervalCases
import Mathlib.Tactic.FinCases
import Mathlib.Tactic.NormNum

/-!
# C92 Sub-shapes, C93 translation of shapes
-/

namespace Props
open Verif Frackit TopoShape

theorem seen_eq (s c : TopoShape) : Spec.seen s c = c.within s.loc s.forward := by
  obtain ⟨i, k, p, cs, l, f⟩ := c
  obtain ⟨i', k', p', cs', l', f'⟩ := s
  simp only [Spec.seen, object, kind, subs, loc, point, forward, within, add_sub_cancel_left, mk.injEq,
    true_and]
  cases f' <;> cases f <;> rfl

@[simp] theorem within_zero (s : TopoShape) : s.within 0 true = s := by
  obtain ⟨i, k, p, cs, l, f⟩ := s
  simp [within]

theorem exploreIn_within (k : TopAbs) (l : V3) (f : Bool) (s : TopoShape) :
    exploreIn k l f s = explore k (s.within l f) := by
  obtain ⟨i, kd, p, cs, l', f'⟩ := s
  simp [explore, within, exploreIn]

theorem mem_exploreList (k : TopAbs) (l : V3) (f : Bool) (t : TopoShape) (cs : List TopoShape) :
    t ∈ exploreList k l f cs ↔ ∃ c ∈ cs, t ∈ explore k (c.within l f) := by
  induction cs with
  | nil => simp [exploreList]
  | cons c cs ih => simp [exploreList, ih, exploreIn_within]

/-- One step of the search. -/
theorem mem_explore (k : TopAbs) (s t : TopoShape) :
    t ∈ explore k s ↔ (s.kind = k ∧ t = s) ∨
      (s.kind ≠ k ∧ s.kind.rank < k.rank ∧ ∃ c ∈ s.subs, t ∈ explore k (Spec.seen s c)) := by
  simp only [seen_eq]
  obtain ⟨i, kd, p, cs, l, f⟩ := s
  unfold explore
  rw [exploreIn]
  simp only [kind, subs, loc, forward, zero_add]
  by_cases h : kd = k
  · simp [h]
  · by_cases h2 : kd.rank < k.rank
    · simp only [h, h2, if_true, if_false, mem_exploreList]
      simp only [explore, false_and, false_or, ne_eq, h, not_false_eq_true, true_and, Bool.true_beq]
    · simp [h, h2]

theorem explore_sound_aux (k : TopAbs) : ∀ (s : TopoShape) (l : V3) (f : Bool) (t : TopoShape),
    t ∈ explore k (s.within l f) → Spec.IsPart (s.within l f) t ∧ t.kind = k
  | .mk i kd p cs l' f', l, f, t, ht => by
    rw [mem_explore] at ht
    rcases ht with ⟨hk, rfl⟩ | ⟨_, _, c, hc, ht⟩
    · exact ⟨.refl _, hk⟩
    · have hc' : c ∈ cs := hc
      rw [seen_eq] at ht
      obtain ⟨h1, h2⟩ := explore_sound_aux k c _ _ t ht
      refine ⟨.sub _ c t hc ?_, h2⟩
      rw [seen_eq]
      exact h1
termination_by s => sizeOf s
decreasing_by
  have := List.sizeOf_lt_of_mem hc'
  simp only [TopoShape.mk.sizeOf_spec]
  omega

theorem rank_inj {a b : TopAbs} (h : a.rank = b.rank) : a = b := by
  cases a <;> cases b <;> simp_all [TopAbs.rank]

theorem wellFormed_seen {s c : TopoShape} (h : Spec.WellFormed s) (hc : c ∈ s.subs) :
    Spec.WellFormed (Spec.seen s c) := fun t ht => h t (.sub _ c t hc ht)

theorem within_within (l l' : V3) (f f' : Bool) (s : TopoShape) :
    (s.within l f).within l' f' = s.within (l' + l) (f' == f) := by
  obtain ⟨i, k, p, cs, l0, f0⟩ := s
  simp only [within, add_assoc, mk.injEq, true_and]
  cases f' <;> cases f <;> cases f0 <;> rfl

theorem seen_within (l : V3) (f : Bool) (s c : TopoShape) :
    Spec.seen (s.within l f) c = (Spec.seen s c).within l f := by
  rw [seen_eq, seen_eq, within_within]
  obtain ⟨i, k, p, cs, l0, f0⟩ := s
  rfl

theorem within_inverse (l : V3) (f : Bool) (s : TopoShape) : (s.within l f).within (-l) f = s := by
  rw [within_within, neg_add_cancel, beq_self_eq_true, within_zero]

theorem part_within_aux {s t : TopoShape} (h : Spec.IsPart s t) (l : V3) (f : Bool) :
    Spec.IsPart (s.within l f) (t.within l f) := by
  induction h with
  | refl s => exact .refl _
  | sub s c t hc _ ih =>
    refine .sub _ c _ ?_ ?_
    · obtain ⟨i, k, p, cs, l0, f0⟩ := s
      exact hc
    · rw [seen_within]
      exact ih

/-- The parts of a shape that is placed somewhere. -/
theorem part_within (l : V3) (f : Bool) (s t : TopoShape) :
    Spec.IsPart (s.within l f) t ↔ ∃ t', Spec.IsPart s t' ∧ t = t'.within l f := by
  constructor
  · intro h
    have := part_within_aux h (-l) f
    rw [within_inverse] at this
    refine ⟨_, this, ?_⟩
    rw [within_within, add_neg_cancel, beq_self_eq_true, within_zero]
  · rintro ⟨t', h, rfl⟩
    exact part_within_aux h l f

theorem wellFormed_within {s : TopoShape} (h : Spec.WellFormed s) (l : V3) (f : Bool) :
    Spec.WellFormed (s.within l f) := by
  intro t ht
  obtain ⟨t', h', rfl⟩ := (part_within l f s t).1 ht
  have := h t' h'
  obtain ⟨i, k, p, cs, l0, f0⟩ := t'
  exact this

theorem seen_kind (s c : TopoShape) : (Spec.seen s c).kind = c.kind := rfl

theorem rank_part {s t : TopoShape} (h : Spec.IsPart s t) :
    Spec.WellFormed s → s.kind.rank ≤ t.kind.rank := by
  induction h with
  | refl s => intro _; exact le_rfl
  | sub s c t hc _ ih =>
    intro hw
    have h1 := ih (wellFormed_seen hw hc)
    rw [seen_kind] at h1
    rcases hw s (.refl s) c hc with h2 | ⟨h2, h3⟩
    · omega
    · rw [h2]; exact Nat.zero_le _

theorem mem_explore_iff (k : TopAbs) (s t : TopoShape) (hs : Spec.WellFormed s) (hk : k ≠ .compound) :
    t ∈ explore k s ↔ Spec.IsPart s t ∧ t.kind = k := by
  constructor
  · intro h
    have := explore_sound_aux k s 0 true t (by rwa [within_zero])
    rwa [within_zero] at this
  · rintro ⟨hp, ht⟩
    induction hp with
    | refl s => rw [mem_explore]; exact .inl ⟨ht, rfl⟩
    | sub s c t hc hp ih =>
      have h1 := ih (wellFormed_seen hs hc) ht
      have h2 := rank_part hp (wellFormed_seen hs hc)
      rw [seen_kind, ht] at h2
      rw [mem_explore]
      right
      rcases hs s (.refl s) c hc with h3 | ⟨h3, h4⟩
      · refine ⟨?_, by omega, c, hc, h1⟩
        rintro rfl
        omega
      · refine ⟨fun h => hk (h.symm.trans h3), ?_, c, hc, h1⟩
        rw [h3]
        cases k <;> simp_all [TopAbs.rank]

/-- The sub-shape getters list exactly the parts of the requested class. -/
theorem C92_parts (s t : TopoShape) (hs : Spec.WellFormed s) :
    (t ∈ s.getVertices ↔ Spec.IsPart s t ∧ t.kind = .vertex) ∧
    (t ∈ s.getEdges ↔ Spec.IsPart s t ∧ t.kind = .edge) ∧
    (t ∈ s.getWires ↔ Spec.IsPart s t ∧ t.kind = .wire) ∧
    (t ∈ s.getFaces ↔ Spec.IsPart s t ∧ t.kind = .face) ∧
    (t ∈ s.getShells ↔ Spec.IsPart s t ∧ t.kind = .shell) ∧
    (t ∈ s.getSolids ↔ Spec.IsPart s t ∧ t.kind = .solid) :=
  ⟨mem_explore_iff _ s t hs (by decide), mem_explore_iff _ s t hs (by decide),
    mem_explore_iff _ s t hs (by decide), mem_explore_iff _ s t hs (by decide),
    mem_explore_iff _ s t hs (by decide), mem_explore_iff _ s t hs (by decide)⟩

theorem explore_self (s : TopoShape) : explore s.kind s = [s] := by
  obtain ⟨i, k, p, cs, l, f⟩ := s
  simp [explore, exploreIn, kind]

theorem explore_simpler (k : TopAbs) (s : TopoShape) (h : k.rank < s.kind.rank) : explore k s = [] := by
  obtain ⟨i, kd, p, cs, l, f⟩ := s
  simp only [kind] at h
  have h1 : kd ≠ k := by rintro rfl; omega
  simp [explore, exploreIn, h1, not_lt.2 h.le]

/-! ## Shapes of quadrilaterals and polygons -/

theorem exploreList_eq (k : TopAbs) (l : V3) (f : Bool) (cs : List TopoShape) :
    exploreList k l f cs = cs.flatMap fun c => explore k (c.within l f) := by
  induction cs with
  | nil => rfl
  | cons c cs ih => rw [exploreList, ih, exploreIn_within, List.flatMap_cons]

/-- The shape of a quadrilateral has one face and one wire, its edges are the sides, each listed once, and
there are four vertices, each listed with both of the edges it belongs to. -/
theorem C92_quadrilateral (n : ℕ) (q : Quadrilateral) :
    (quadFaceTopo n q).getEdges.map (fun e => e.getVertices.map point)
      = [[q.p0, q.p1], [q.p1, q.p3], [q.p3, q.p2], [q.p2, q.p0]] ∧
    Spec.Once (quadFaceTopo n q).getEdges ∧
    (quadFaceTopo n q).getVertices.map point = [q.p0, q.p1, q.p1, q.p3, q.p3, q.p2, q.p2, q.p0] ∧
    (quadFaceTopo n q).getFaces = [quadFaceTopo n q] ∧ (quadFaceTopo n q).getWires.length = 1 ∧
    (quadFaceTopo n q).getShells = [] ∧ (quadFaceTopo n q).getSolids = [] ∧
    (∃ a b c d, [a, b, c, d].Nodup ∧
      (quadFaceTopo n q).getVertices.map object = [a, b, b, d, d, c, c, a]) := by
  refine ⟨?_, ?_, ?_, ?_, ?_, ?_, ?_, n, n + 1, n + 2, n + 3, by simp, ?_⟩ <;>
    simp [quadFaceTopo, getEdges, getVertices, getFaces, getWires, getShells, getSolids, explore, exploreIn,
      exploreList, mkEdge, mkVertex, within, point, TopAbs.rank, Spec.Once, object]

theorem wellFormed_mk {i : ℕ} {k : TopAbs} {p : V3} {cs : List TopoShape} {l : V3} {f : Bool}
    (h1 : ∀ c ∈ cs, k.rank < c.kind.rank ∨ (k = .compound ∧ c.kind = .compound))
    (h2 : ∀ c ∈ cs, Spec.WellFormed (c.within l f)) : Spec.WellFormed (.mk i k p cs l f) := by
  intro t ht
  cases ht with
  | refl => exact h1
  | sub _ c _ hc h =>
    rw [seen_eq] at h
    exact h2 c hc t h

theorem wellFormed_vertex (n : ℕ) (p l : V3) (f : Bool) : Spec.WellFormed (.mk n .vertex p [] l f) :=
  wellFormed_mk (by simp) (by simp)

theorem wellFormed_edge (n a b : ℕ) (p q l : V3) (f : Bool) :
    Spec.WellFormed ((mkEdge n (mkVertex a p) (mkVertex b q)).within l f) := by
  refine wellFormed_mk ?_ ?_
  · intro c hc
    simp only [List.mem_cons, List.not_mem_nil, or_false] at hc
    rcases hc with rfl | rfl <;> exact .inl (by simp [mkVertex, within, kind, TopAbs.rank])
  · intro c hc
    simp only [List.mem_cons, List.not_mem_nil, or_false] at hc
    rcases hc with rfl | rfl <;> exact wellFormed_vertex _ _ _ _

theorem wellFormed_face (n m : ℕ) (es : List TopoShape)
    (h : ∀ e ∈ es, ∃ i a b p q, e = mkEdge i (mkVertex a p) (mkVertex b q)) :
    Spec.WellFormed (.mk n .face 0 [.mk m .wire 0 es 0 true] 0 true) := by
  refine wellFormed_mk ?_ ?_
  · intro c hc
    rw [List.mem_singleton] at hc
    subst hc
    exact .inl (by simp [kind, TopAbs.rank])
  · intro c hc
    rw [List.mem_singleton] at hc
    subst hc
    refine wellFormed_mk ?_ ?_
    · intro e he
      obtain ⟨i, a, b, p, q, rfl⟩ := h e he
      exact .inl (by simp [mkEdge, kind, TopAbs.rank])
    · intro e he
      obtain ⟨i, a, b, p, q, rfl⟩ := h e he
      exact wellFormed_edge _ _ _ _ _ _ _

/-- The shapes of quadrilaterals are well-formed. -/
theorem quadFaceTopo_wellFormed (n : ℕ) (q : Quadrilateral) : Spec.WellFormed (quadFaceTopo n q) := by
  refine wellFormed_face _ _ _ ?_
  intro e he
  simp only [List.mem_cons, List.not_mem_nil, or_false] at he
  rcases he with rfl | rfl | rfl | rfl <;> exact ⟨_, _, _, _, _, rfl⟩

/-- The shapes of polygons are well-formed. -/
theorem polygonFaceTopo_wellFormed (n : ℕ) (cs : List V3) : Spec.WellFormed (polygonFaceTopo n cs) := by
  refine wellFormed_face _ _ _ ?_
  intro e he
  obtain ⟨i, _, rfl⟩ := List.mem_map.1 he
  exact ⟨_, _, _, _, _, rfl⟩

/-- The hypothesis of `C92_parts` holds for the face of a quadrilateral in a compound. -/
example (q : Quadrilateral) :
    Spec.WellFormed (.mk 100 .compound 0 [(quadFaceTopo 0 q).within ⟨1, 2, 3⟩ false] 0 true) := by
  refine wellFormed_mk ?_ ?_
  · intro c hc
    rw [List.mem_singleton] at hc
    subst hc
    exact .inl (by simp [quadFaceTopo, within, kind, TopAbs.rank])
  · intro c hc
    rw [List.mem_singleton] at hc
    subst hc
    exact wellFormed_within (wellFormed_within (quadFaceTopo_wellFormed 0 q) _ _) _ _

/-- The claim that no vertex is listed twice. -/
def C92_once_full : Prop := ∀ s, Spec.WellFormed s → Spec.Once s.getVertices

/-- It fails for the shapes of quadrilaterals. -/
theorem C92_once_disproof : ¬ C92_once_full := by
  intro H
  have h := H _ (quadFaceTopo_wellFormed 0 (Quadrilateral.make 0 ⟨1, 0, 0⟩ ⟨0, 1, 0⟩ ⟨1, 1, 0⟩))
  simp [quadFaceTopo, getVertices, explore, exploreIn, exploreList, mkEdge, mkVertex, within, TopAbs.rank,
    Spec.Once, object, loc] at h

theorem explore_face (k : TopAbs) (hk : 5 < k.rank) (i j : ℕ) (es : List TopoShape) :
    explore k (.mk i .face 0 [.mk j .wire 0 es 0 true] 0 true) = es.flatMap (explore k) := by
  have h1 : TopAbs.face ≠ k := by rintro rfl; simp [TopAbs.rank] at hk
  have h2 : TopAbs.wire ≠ k := by rintro rfl; simp [TopAbs.rank] at hk
  have h3 : TopAbs.face.rank < k.rank := by show _ < _; exact lt_of_le_of_lt (by simp [TopAbs.rank]) hk
  have h4 : TopAbs.wire.rank < k.rank := by show _ < _; exact lt_of_le_of_lt (by simp [TopAbs.rank]) hk
  unfold explore
  rw [exploreIn, if_neg h1, if_pos h3, exploreList, exploreList, exploreIn, if_neg h2, if_pos h4,
    exploreList_eq]
  simp only [zero_add, beq_self_eq_true, within_zero, List.append_nil]
  rfl

theorem polygon_edges (n : ℕ) (cs : List V3) : (polygonFaceTopo n cs).getEdges
    = (List.range cs.length).map fun i => mkEdge (n + cs.length + i) (mkVertex (n + i) (cs.getD i 0))
        (mkVertex (n + (i + 1) % cs.length) (cs.getD ((i + 1) % cs.length) 0)) := by
  unfold getEdges polygonFaceTopo
  rw [explore_face _ (by simp [TopAbs.rank]), List.flatMap_map]
  have h : ∀ (m : ℕ) (a b : TopoShape), explore .edge (mkEdge m a b) = [mkEdge m a b] :=
    fun m a b => explore_self (mkEdge m a b)
  simp only [h]
  induction List.range cs.length with
  | nil => rfl
  | cons a l ih => rw [List.flatMap_cons, ih, List.map_cons]; rfl

theorem edge_vertices (m : ℕ) (a b : ℕ) (p q : V3) :
    (mkEdge m (mkVertex a p) (mkVertex b q)).getVertices
      = [mkVertex a p, (mkVertex b q).within 0 false] := by
  simp [mkEdge, getVertices, explore, exploreIn, exploreList, mkVertex, within, TopAbs.rank]

theorem polygon_vertices (n : ℕ) (cs : List V3) : (polygonFaceTopo n cs).getVertices
    = (List.range cs.length).flatMap fun i => [mkVertex (n + i) (cs.getD i 0),
        (mkVertex (n + (i + 1) % cs.length) (cs.getD ((i + 1) % cs.length) 0)).within 0 false] := by
  unfold getVertices polygonFaceTopo
  rw [explore_face _ (by simp [TopAbs.rank]), List.flatMap_map]
  congr 1
  funext i
  exact edge_vertices _ _ _ _ _

theorem count_flatMap_pair (f g : ℕ → ℕ) (a : ℕ) (l : List ℕ) :
    (l.flatMap fun i => [f i, g i]).count a = (l.map f).count a + (l.map g).count a := by
  induction l with
  | nil => rfl
  | cons b l ih =>
    rw [List.flatMap_cons, List.count_append, ih, List.map_cons, List.map_cons, List.count_cons,
      List.count_cons, List.count_cons, List.count_cons, List.count_nil]
    omega

theorem next_eq_rotate (k : ℕ) : ((List.range k).map fun i => (i + 1) % k) = (List.range k).rotate 1 := by
  refine List.ext_getElem (by simp) ?_
  intro i h1 h2
  rw [List.getElem_rotate]
  simp

/-- The shape of a polygon with two or more corners has one face and one wire, its edges are the sides,
each listed once, and every corner is listed exactly twice. -/
theorem C92_polygon (n : ℕ) (cs : List V3) :
    (polygonFaceTopo n cs).getEdges.map (fun e => e.getVertices.map point)
      = (List.range cs.length).map (fun i => [cs.getD i 0, cs.getD ((i + 1) % cs.length) 0]) ∧
    Spec.Once (polygonFaceTopo n cs).getEdges ∧
    (∀ v ∈ (polygonFaceTopo n cs).getVertices, ∃ i < cs.length, v.object = n + i ∧ v.point = cs.getD i 0) ∧
    (∀ i < cs.length, ((polygonFaceTopo n cs).getVertices.map object).count (n + i) = 2) ∧
    (polygonFaceTopo n cs).getFaces = [polygonFaceTopo n cs] ∧
    (polygonFaceTopo n cs).getWires.length = 1 ∧
    (polygonFaceTopo n cs).getShells = [] ∧ (polygonFaceTopo n cs).getSolids = [] := by
  refine ⟨?_, ?_, ?_, ?_, ?_, ?_, ?_, ?_⟩
  · rw [polygon_edges, List.map_map]
    refine List.map_congr_left fun i _ => ?_
    rw [Function.comp_apply, edge_vertices]
    simp [mkVertex, point, within]
  · rw [polygon_edges]
    unfold Spec.Once
    rw [List.pairwise_map]
    refine List.Pairwise.imp ?_ List.pairwise_lt_range
    intro a b hab h
    have := h.1
    simp only [mkEdge, object] at this
    omega
  · intro v hv
    rw [polygon_vertices] at hv
    obtain ⟨i, hi, hv⟩ := List.mem_flatMap.1 hv
    rw [List.mem_range] at hi
    simp only [List.mem_cons, List.not_mem_nil, or_false] at hv
    rcases hv with rfl | rfl
    · exact ⟨i, hi, rfl, by simp [mkVertex, point]⟩
    · exact ⟨(i + 1) % cs.length, Nat.mod_lt _ (by omega), rfl, by simp [mkVertex, point, within]⟩
  · intro i hi
    rw [polygon_vertices, List.map_flatMap]
    have : (fun i => List.map object [mkVertex (n + i) (cs.getD i 0),
        (mkVertex (n + (i + 1) % cs.length) (cs.getD ((i + 1) % cs.length) 0)).within 0 false])
        = fun i => [n + i, n + (i + 1) % cs.length] := by
      funext j; rfl
    rw [this, count_flatMap_pair (fun i => n + i) (fun i => n + (i + 1) % cs.length)]
    have e : ((List.range cs.length).map fun i => n + (i + 1) % cs.length)
        = ((List.range cs.length).rotate 1).map (n + ·) := by
      rw [← next_eq_rotate, List.map_map]; rfl
    rw [e, List.map_rotate, (List.rotate_perm _ 1).count_eq, List.count_map_of_injective _ _
      (fun a b h => by simpa using h)]
    rw [List.count_eq_one_of_mem List.nodup_range (List.mem_range.2 hi)]
  · exact explore_self (polygonFaceTopo n cs)
  · simp [polygonFaceTopo, getWires, explore, exploreIn, exploreList, TopAbs.rank]
  · exact explore_simpler _ _ (by simp [polygonFaceTopo, kind, TopAbs.rank])
  · exact explore_simpler _ _ (by simp [polygonFaceTopo, kind, TopAbs.rank])

/-! ## C92 in Python -/

/-- Wrappers hold shapes of the class they are made for. -/
def ValidWrapper (w : Wrapped) : Prop := ∀ k, w.cls.kind = some k → w.shape.kind = k

/-- In Python, the getters list the parts of the requested class, in wrappers of this class; if the wrapper
is made for a class of simpler shapes, they raise an error. -/
theorem C92_python (c : WrapperClass) (k : TopAbs) (w : Wrapped) (hw : ValidWrapper w)
    (hs : Spec.WellFormed w.shape) (hc : c.kind = some k) (hk : k ≠ .compound) :
    (∃ l, w.get c = .val l ∧
      ∀ x, x ∈ l ↔ x.cls = c ∧ Spec.IsPart w.shape x.shape ∧ x.shape.kind = k) ∨
    (w.get c = .thrown "TypeError" ∧ w.cls ≠ .shape ∧ ∀ t, Spec.IsPart w.shape t → t.kind ≠ k) := by
  have aux : ∀ (c : WrapperClass) (k : TopAbs), k ≠ .compound → ∀ x : Wrapped,
      x ∈ (explore k w.shape).map (Wrapped.mk c) ↔
        x.cls = c ∧ Spec.IsPart w.shape x.shape ∧ x.shape.kind = k := by
    intro c k hk x
    rw [List.mem_map]
    constructor
    · rintro ⟨t, ht, rfl⟩
      exact ⟨rfl, (mem_explore_iff k _ _ hs hk).1 ht⟩
    · rintro ⟨rfl, h⟩
      exact ⟨x.shape, (mem_explore_iff k _ _ hs hk).2 h, rfl⟩
  by_cases hr : getterRegistered c w.cls = true
  · left
    unfold Wrapped.get
    rw [if_pos hr]
    cases c <;> simp only [WrapperClass.kind, Option.some.injEq, reduceCtorEq] at hc
    all_goals subst hc
    · exact ⟨_, rfl, aux _ _ hk⟩
    · exact ⟨_, rfl, aux _ _ hk⟩
    · exact ⟨_, rfl, aux _ _ hk⟩
    · exact ⟨_, rfl, aux _ _ hk⟩
    · exact ⟨_, rfl, aux _ _ hk⟩
    · exact ⟨_, rfl, aux _ _ hk⟩
    · exact absurd rfl hk
  · right
    refine ⟨by unfold Wrapped.get; rw [if_neg hr], ?_, ?_⟩
    · intro h
      rw [h] at hr
      cases c <;> simp_all [getterRegistered, WrapperClass.kind]
    · intro t ht htk
      have h1 := rank_part ht hs
      rw [htk] at h1
      cases c <;> simp only [WrapperClass.kind, Option.some.injEq, reduceCtorEq] at hc
      all_goals subst hc
      all_goals first | exact absurd rfl hk | skip
      all_goals
        cases hcl : w.cls <;> rw [hcl] at hr <;> simp [getterRegistered] at hr
        all_goals
          have h2 := hw _ (by rw [hcl]; rfl)
          rw [h2] at h1
          simp [TopAbs.rank] at h1

/-! ## C93 Translation -/

theorem moved_within (v : V3) (l : V3) (f : Bool) (s : TopoShape) :
    (s.within l f).moved v = s.within (v + l) f := by
  unfold moved
  rw [within_within]
  cases f <;> rfl

theorem parse_self (c : WrapperClass) (s : TopoShape) (hc : c ≠ .compound)
    (h : ∀ k, c.kind = some k → s.kind = k) : parseShape c s = .val s := by
  have aux : ∀ k, s.kind = k → getSingleEntity (explore k s) = .val s := by
    rintro k rfl
    rw [explore_self]
    rfl
  cases c
  · rfl
  · exact aux _ (h _ rfl)
  · exact aux _ (h _ rfl)
  · exact aux _ (h _ rfl)
  · exact aux _ (h _ rfl)
  · exact aux _ (h _ rfl)
  · exact aux _ (h _ rfl)
  · exact absurd rfl hc

/-- A shape is parsed as one of a given class, other than general shapes and compounds, exactly if it has a single
sub-shape of the class, which is the result.  With several ones an error is raised; the case that there are none is not
checked. -/
theorem C93_parse (c : WrapperClass) (k : TopAbs) (hc : c.kind = some k) (hk : c ≠ .compound) (s : TopoShape) :
    (∀ t, parseShape c s = .val t ↔ explore k s = [t]) ∧
    ((parseShape c s).isThrown ↔ 2 ≤ (explore k s).length) ∧ (parseShape c s = .ub ↔ explore k s = []) := by
  have aux : ∀ l : List TopoShape, (∀ t, getSingleEntity l = .val t ↔ l = [t]) ∧
      ((getSingleEntity l).isThrown ↔ 2 ≤ l.length) ∧ (getSingleEntity l = .ub ↔ l = []) := by
    rintro (_ | ⟨a, _ | ⟨b, l⟩⟩) <;> simp [getSingleEntity, Outcome.isThrown]
  cases c <;> simp only [WrapperClass.kind, Option.some.injEq, reduceCtorEq] at hc
  all_goals first | exact absurd rfl hk | (subst hc; exact aux _)

/-- The face of a quadrilateral has four edges and cannot be parsed as an edge. -/
example (q : Quadrilateral) : (parseShape .edge (quadFaceTopo 0 q)).isThrown := by
  refine ((C93_parse .edge .edge rfl (by decide) _).2.1).2 ?_
  have := congrArg List.length (C92_quadrilateral 0 q).1
  rw [List.length_map] at this
  exact le_of_le_of_eq (by simp) this.symm

/-- Translation of a wrapped shape never fails; the result is the moved shape in a wrapper of the same class,
for compounds in a wrapper for general shapes. -/
theorem C93_translate (w : Wrapped) (v : V3) (hw : ValidWrapper w) :
    ∃ r, w.translate v = .val r ∧ r.cls = (if w.cls = .compound then .shape else w.cls) ∧
      ValidWrapper r ∧ Spec.IsMoved v w.shape r.shape := by
  have hkind : (w.shape.moved v).kind = w.shape.kind := by
    obtain ⟨c, i, k, p, cs, l, f⟩ := w; rfl
  have hp : parseShape w.cls.translated (w.shape.moved v) = .val (w.shape.moved v) := by
    refine parse_self _ _ ?_ ?_
    · cases h : w.cls <;> simp [WrapperClass.translated]
    · intro k hk
      rw [hkind]
      refine hw k ?_
      cases h : w.cls <;> rw [h] at hk <;> simp_all [WrapperClass.translated, WrapperClass.kind]
  refine ⟨⟨w.cls.translated, w.shape.moved v⟩, ?_, ?_, ?_, ?_⟩
  · unfold Wrapped.translate TopoShape.translate
    rw [hp]
    rfl
  · cases h : w.cls <;> simp [WrapperClass.translated]
  · intro k hk
    rw [hkind]
    refine hw k ?_
    cases h : w.cls <;> rw [h] at hk <;> simp_all [WrapperClass.translated, WrapperClass.kind]
  · obtain ⟨c, i, k, p, cs, l, f⟩ := w
    refine ⟨rfl, rfl, rfl, ?_, rfl, ?_⟩
    · simp [moved, within, forward]
    · simp [moved, within, point, add_assoc]

/-- The parts of a translated shape are the translated parts. -/
theorem C93_parts (s t : TopoShape) (v : V3) :
    Spec.IsPart (s.translate v) t ↔ ∃ u, Spec.IsPart s u ∧ Spec.IsMoved v u t := by
  unfold TopoShape.translate moved
  rw [part_within]
  constructor
  · rintro ⟨u, hu, rfl⟩
    refine ⟨u, hu, ?_⟩
    obtain ⟨i, k, p, cs, l, f⟩ := u
    refine ⟨rfl, rfl, rfl, ?_, rfl, ?_⟩
    · simp [within, forward]
    · simp [within, point, add_assoc]
  · rintro ⟨u, hu, hm⟩
    refine ⟨u, hu, ?_⟩
    obtain ⟨i, k, p, cs, l, f⟩ := u
    obtain ⟨i', k', p', cs', l', f'⟩ := t
    obtain ⟨h1, h2, h3, h4, h5, h6⟩ := hm
    simp only [object, kind, subs, forward, loc, point] at h1 h2 h3 h4 h5 h6
    subst h1 h2 h3 h4 h5
    rw [add_assoc, add_right_inj, add_right_inj] at h6
    subst h6
    simp [within]

/-- The getters of a translated shape list the translated shapes, in the same order. -/
theorem C93_getters (k : TopAbs) (s : TopoShape) (v : V3) :
    explore k (s.translate v) = (explore k s).map (·.translate v) := by
  have key : ∀ (s : TopoShape) (l : V3) (f : Bool),
      explore k (s.within (v + l) f) = (explore k (s.within l f)).map (·.moved v) := by
    intro s
    induction s using TopoShape.rec (motive_2 := fun cs => ∀ (l : V3) (f : Bool),
      exploreList k (v + l) f cs = (exploreList k l f cs).map (·.moved v)) with
    | mk i kd p cs l0 f0 ih =>
      intro l f
      rw [← exploreIn_within, ← exploreIn_within, exploreIn, exploreIn]
      by_cases h : kd = k
      · simp [h, moved, within, add_assoc]
      · by_cases h2 : kd.rank < k.rank
        · rw [if_neg h, if_pos h2, if_neg h, if_pos h2, add_assoc]
          exact ih _ _
        · simp [h, h2]
    | nil => rfl
    | cons c cs ih1 ih2 =>
      rw [exploreList, exploreList, List.map_append, ← ih2, exploreIn_within, exploreIn_within, ih1]
  have := key s 0 true
  rw [within_zero, add_zero] at this
  exact this

/-- Translations compose, and translating back restores the shape. -/
theorem C93_compose (s : TopoShape) (v w : V3) :
    (s.translate v).translate w = s.translate (w + v) ∧ s.translate 0 = s ∧
      (s.translate v).translate (-v) = s := by
  have h : ∀ v w : V3, (s.translate v).translate w = s.translate (w + v) := by
    intro v w
    unfold TopoShape.translate moved
    rw [within_within]
    rfl
  refine ⟨h v w, within_zero s, ?_⟩
  rw [h, neg_add_cancel]
  exact within_zero s

/-- A wrapped face of a quadrilateral meets the hypotheses. -/
example (q : Quadrilateral) : ValidWrapper ⟨.face, quadFaceTopo 0 q⟩ ∧
    Spec.WellFormed (quadFaceTopo 0 q) := by
  refine ⟨?_, quadFaceTopo_wellFormed 0 q⟩
  intro k hk
  cases hk
  rfl

end Props
