import Verif.Model.Python.Indices
import Verif.Props.Accessors
import Verif.Props.Box

/-!
# C138 Corners, edges and faces by index in Python
-/

namespace Spec.PyIndices
open Verif Frackit

/-- The integer that a number stands for in Python: integers and truth values are integers, floating point numbers are
not. -/
def integer : PyNumber → Option ℤ
  | .int z => some z
  | .bool true => some 1
  | .bool false => some 0
  | .float _ => none

/-- The number is the index of one of `n` items. -/
def ValidIndex (x : PyNumber) (n : ℕ) : Prop := ∃ i : ℕ, integer x = some (i : ℤ) ∧ i < n

/-- The geometry has been constructed from, or for boxes spans, the given corners. -/
inductive HasCorners : PyThing → List V3 → Prop where
  | triangle (a b c : V3) : HasCorners (.triangle (Triangle.make a b c)) [a, b, c]
  | quadrilateral (a b c d : V3) : HasCorners (.quadrilateral (Quadrilateral.make a b c d)) [a, b, c, d]
  | polygon (cs : List V3) (pg : Polygon) (h : Polygon.make cs = .val pg) : HasCorners (.polygon pg) cs
  | box (lo hi : V3) (b : Box) (h : Box.ofCorners lo hi = .val b) : HasCorners (.box b)
      [⟨lo.x, lo.y, lo.z⟩, ⟨hi.x, lo.y, lo.z⟩, ⟨lo.x, hi.y, lo.z⟩, ⟨hi.x, hi.y, lo.z⟩,
       ⟨lo.x, lo.y, hi.z⟩, ⟨hi.x, lo.y, hi.z⟩, ⟨lo.x, hi.y, hi.z⟩, ⟨hi.x, hi.y, hi.z⟩]

/-- The function returns the item with the given index, and an exception for everything else. -/
def Indexed {α : Type} (f : PyNumber → Outcome α) (l : List α) : Prop :=
  ∀ x, (∀ i : ℕ, integer x = some (i : ℤ) → (h : i < l.length) → f x = .val l[i]) ∧
    (¬ ValidIndex x l.length → (f x).isThrown)

end Spec.PyIndices

namespace Props
open Verif Frackit Spec.PyIndices

/-! ## Numbers as indices -/

theorem castUnsigned_eq (x : PyNumber) (i : ℕ) :
    castUnsigned x = some i ↔ integer x = some (i : ℤ) ∧ i < 2 ^ 32 := by
  cases x with
  | int z =>
      simp only [castUnsigned, integer, Option.some.injEq]
      split_ifs with h
      · simp only [Option.some.injEq]; omega
      · simp only [reduceCtorEq, false_iff]; omega
  | bool b => cases b <;> simp [castUnsigned, integer] <;> omega
  | float x => simp [castUnsigned, integer]

theorem castUnsigned_none (x : PyNumber) :
    castUnsigned x = none ↔ ¬ ValidIndex x (2 ^ 32) := by
  constructor
  · rintro h ⟨i, hi⟩
    rw [(castUnsigned_eq x i).2 hi] at h
    cases h
  · intro h
    cases hc : castUnsigned x with
    | none => rfl
    | some i => exact absurd ⟨i, (castUnsigned_eq x i).1 hc⟩ h

theorem pyIndexed_val {α : Type} (name : String) (f : ℕ → Outcome α) (x : PyNumber) (i : ℕ)
    (h : integer x = some (i : ℤ)) (hi : i < 2 ^ 32) : pyIndexed name f [x] [] = pyRuntime (f i) := by
  simp [pyIndexed, bindArguments, (castUnsigned_eq x i).2 ⟨h, hi⟩]

theorem pyIndexed_invalid {α : Type} (name : String) (f : ℕ → Outcome α) (x : PyNumber)
    (h : ¬ ValidIndex x (2 ^ 32)) : pyIndexed name f [x] [] = .thrown "TypeError" := by
  simp [pyIndexed, bindArguments, (castUnsigned_none x).2 h]

/-- Three cases for a number as index. -/
theorem index_cases (x : PyNumber) (n : ℕ) :
    (∃ i : ℕ, integer x = some (i : ℤ) ∧ i < n) ∨ (∃ i : ℕ, integer x = some (i : ℤ) ∧ n ≤ i ∧ i < 2 ^ 32) ∨
      (¬ ValidIndex x n ∧ ¬ ValidIndex x (2 ^ 32)) := by
  by_cases h : ValidIndex x n
  · exact .inl h
  · by_cases h' : ValidIndex x (2 ^ 32)
    · obtain ⟨i, hi, hl⟩ := h'
      exact .inr (.inl ⟨i, hi, by by_contra hc; exact h ⟨i, hi, by omega⟩, hl⟩)
    · exact .inr (.inr ⟨h, h'⟩)

theorem integer_unique {x : PyNumber} {i j : ℕ} (h : integer x = some (i : ℤ)) (h' : integer x = some (j : ℤ)) :
    i = j := by
  rw [h] at h'
  exact_mod_cast Option.some.inj h'

/-- A function of an index that is right for the items of the list and throws otherwise. -/
theorem indexed_of {α : Type} (name : String) (f : ℕ → Outcome α) (l : List α) (hl : l.length ≤ 2 ^ 32)
    (hv : ∀ i, (h : i < l.length) → f i = .val l[i]) (ht : ∀ i, l.length ≤ i → (f i).isThrown) :
    Indexed (fun x => pyIndexed name f [x] []) l := by
  intro x
  constructor
  · intro i hi hlt
    change pyIndexed name f [x] [] = _
    rw [pyIndexed_val name f x i hi (by omega), hv i hlt]
    rfl
  · intro hn
    rcases index_cases x l.length with h | ⟨i, hi, hge, hlt⟩ | ⟨_, h⟩
    · exact absurd h hn
    · change (pyIndexed name f [x] []).isThrown
      rw [pyIndexed_val name f x i hi hlt]
      have := ht i hge
      revert this
      cases f i <;> intro h <;> first | exact trivial | exact h
    · change (pyIndexed name f [x] []).isThrown
      rw [pyIndexed_invalid name f x h]
      exact trivial

theorem comprehension_val {α : Type} (f : PyNumber → Outcome α) (g : ℕ → α) (is : List ℕ)
    (h : ∀ i ∈ is, f (.int i) = .val (g i)) :
    PyThing.comprehension f (is.map fun i => PyNumber.int i) = .val (is.map g) := by
  induction is with
  | nil => rfl
  | cons a t ih =>
      change (f (.int a) >>= fun b =>
        PyThing.comprehension f (t.map fun i => PyNumber.int i) >>= fun r => pure (b :: r)) = _
      rw [h a (by simp), ih fun i hi => h i (by simp [hi])]
      rfl

theorem listOf_val {α : Type} (f : PyNumber → Outcome α) (l : List α)
    (h : ∀ i, (hi : i < l.length) → f (.int i) = .val l[i]) : PyThing.listOf (.val l.length) f = .val l := by
  rcases l with _ | ⟨a, t⟩
  · rfl
  · change PyThing.comprehension f _ = _
    rw [comprehension_val f (fun i => (a :: t).getD i a) _ ?_]
    · congr 1
      apply List.ext_getElem
      · simp
      · intro i h1 h2
        simp [List.getD_eq_getElem?_getD, List.getElem?_eq_getElem h2]
    · intro i hi
      rw [List.mem_range] at hi
      rw [h i hi]
      simp [List.getD_eq_getElem?_getD, List.getElem?_eq_getElem hi]

/-! ## Corners -/

/-- The claim: all geometries with corners, all numbers as index. -/
def C138_full : Prop :=
  ∀ g l, HasCorners g l → l.length ≤ 2 ^ 32 → Indexed (fun x => g.corner [x] []) l

theorem polygon_made_corners {cs : List V3} {pg : Polygon} (h : Polygon.make cs = .val pg) : pg.corners = cs :=
  (C82_polygon cs pg h).1

/-- The loop over all corners returns the corners, in their order. -/
theorem C138_corners (g : PyThing) (l : List V3) (h : HasCorners g l) (hl : l.length ≤ 2 ^ 32) :
    g.numCorners = .val l.length ∧ PyThing.listOf g.numCorners (fun x => g.corner [x] []) = .val l ∧
      ∀ x (i : ℕ), integer x = some (i : ℤ) → (hi : i < l.length) → g.corner [x] [] = .val l[i] := by
  have key : g.numCorners = .val l.length ∧
      ∀ x (i : ℕ), integer x = some (i : ℤ) → (hi : i < l.length) → g.corner [x] [] = .val l[i] := by
    cases h with
    | triangle a b c =>
        refine ⟨rfl, fun x i hx hi => ?_⟩
        rw [PyThing.corner, pyIndexed_val _ _ x i hx (by omega)]
        simp only [List.length_cons, List.length_nil] at hi
        interval_cases i <;> rfl
    | quadrilateral a b c d =>
        refine ⟨rfl, fun x i hx hi => ?_⟩
        rw [PyThing.corner, pyIndexed_val _ _ x i hx (by omega)]
        simp only [List.length_cons, List.length_nil] at hi
        interval_cases i <;> rfl
    | polygon cs pg h =>
        have hc := polygon_made_corners h
        refine ⟨by rw [PyThing.numCorners, hc], fun x i hx hi => ?_⟩
        rw [PyThing.corner, pyIndexed_val _ _ x i hx (by omega), Polygon.corner, hc, List.getElem?_eq_getElem hi]
        rfl
    | box lo hi b h =>
        refine ⟨rfl, fun x i hx hi' => ?_⟩
        have hb : lo.x ≤ hi.x ∧ lo.y ≤ hi.y ∧ lo.z ≤ hi.z := by
          by_contra hn
          have := (C13_construction lo hi).2 hn
          rw [h] at this
          exact this
        obtain ⟨b', hb', hlo, hhi⟩ := (C13_construction lo hi).1 hb
        obtain rfl := Outcome.val.inj (h.symm.trans hb')
        subst hlo hhi
        rw [PyThing.corner, pyIndexed_val _ _ x i hx (by omega)]
        simp only [List.length_cons, List.length_nil] at hi'
        interval_cases i <;> rfl
  refine ⟨key.1, ?_, key.2⟩
  rw [key.1]
  exact listOf_val _ l fun i hi => key.2 _ i rfl hi

/-- What happens for all other numbers: an exception for boxes, and for numbers that are negative, not integers or too
large for `unsigned int`; undefined behaviour for the remaining ones. -/
theorem C138_others_partial (g : PyThing) (l : List V3) (h : HasCorners g l) (x : PyNumber)
    (hx : ¬ ValidIndex x l.length) :
    ((∃ b, g = .box b) ∨ ¬ ValidIndex x (2 ^ 32) → (g.corner [x] []).isThrown) ∧
    ((¬ ∃ b, g = .box b) → ValidIndex x (2 ^ 32) → g.corner [x] [] = .ub) := by
  rcases index_cases x l.length with hv | ⟨i, hi, hge, hlt⟩ | ⟨_, h32⟩
  · exact absurd hv hx
  · cases h with
    | triangle a b c =>
        refine ⟨fun h => ?_, fun _ _ => ?_⟩
        · rcases h with ⟨_, h⟩ | h
          · cases h
          · exact absurd ⟨i, hi, hlt⟩ h
        · rw [PyThing.corner, pyIndexed_val _ _ x i hi hlt]
          obtain ⟨k, rfl⟩ := Nat.exists_eq_add_of_le' hge
          rfl
    | quadrilateral a b c d =>
        refine ⟨fun h => ?_, fun _ _ => ?_⟩
        · rcases h with ⟨_, h⟩ | h
          · cases h
          · exact absurd ⟨i, hi, hlt⟩ h
        · rw [PyThing.corner, pyIndexed_val _ _ x i hi hlt]
          obtain ⟨k, rfl⟩ := Nat.exists_eq_add_of_le' hge
          rfl
    | polygon cs pg h =>
        refine ⟨fun h => ?_, fun _ _ => ?_⟩
        · rcases h with ⟨_, h⟩ | h
          · cases h
          · exact absurd ⟨i, hi, hlt⟩ h
        · rw [PyThing.corner, pyIndexed_val _ _ x i hi hlt, Polygon.corner, polygon_made_corners h,
            List.getElem?_eq_none hge]
          rfl
    | box lo hi' b h =>
        refine ⟨fun _ => ?_, fun hn => absurd ⟨b, rfl⟩ hn⟩
        rw [PyThing.corner, pyIndexed_val _ _ x i hi hlt]
        obtain ⟨k, rfl⟩ := Nat.exists_eq_add_of_le' hge
        exact trivial
  · refine ⟨fun _ => ?_, fun _ hv => absurd hv h32⟩
    cases h <;> rw [PyThing.corner, pyIndexed_invalid _ _ x h32] <;> exact trivial

/-- The claim fails: `Triangle(...).corner(3)` is undefined. -/
theorem C138_disproof : ¬ C138_full := by
  intro h
  have ht := HasCorners.triangle 0 ⟨1, 0, 0⟩ ⟨0, 1, 0⟩
  have hn : ¬ ValidIndex (.int 3) 3 := by
    rintro ⟨i, hi, hlt⟩
    have : (3 : ℤ) = i := Option.some.inj hi
    omega
  have h1 := (h _ _ ht (by norm_num) (.int 3)).2 hn
  have h2 := (C138_others_partial _ _ ht (.int 3) hn).2 (by rintro ⟨b, h⟩; cases h) ⟨3, rfl, by norm_num⟩
  change (PyThing.corner _ [.int 3] []).isThrown at h1
  rw [h2] at h1
  exact h1

/-- Boxes fulfil the claim. -/
theorem C138_box (lo hi : V3) (b : Box) (h : Box.ofCorners lo hi = .val b) (l : List V3)
    (hl : HasCorners (.box b) l) : Indexed (fun x => PyThing.corner (.box b) [x] []) l := by
  have h8 : l.length ≤ 2 ^ 32 := by cases hl; norm_num
  exact fun x => ⟨fun i hx hi => (C138_corners _ l hl h8).2.2 x i hx hi,
    fun hx => (C138_others_partial _ l hl x hx).1 (.inl ⟨b, rfl⟩)⟩

/-! ## Edges and faces -/

/-- The corners in the order in which they are passed along the boundary. -/
inductive HasBoundary : PyThing → List V3 → Prop where
  | triangle (a b c : V3) : HasBoundary (.triangle (Triangle.make a b c)) [a, b, c]
  | quadrilateral (a b c d : V3) : HasBoundary (.quadrilateral (Quadrilateral.make a b c d)) [a, b, d, c]
  | polygon (cs : List V3) (pg : Polygon) (h : Polygon.make cs = .val pg) : HasBoundary (.polygon pg) cs

theorem closedBoundary_python {f : ℕ → Outcome Segment} {n : ℕ} {cs : List V3} (h : ClosedBoundary f n cs)
    (g : ℕ → Outcome Segment) (hg : ∀ i < n, ∀ s, f i = .val s → g i = .val s) : ClosedBoundary g n cs := by
  refine ⟨fun i hi => ?_, fun j hj => ?_⟩
  · obtain ⟨s, hs, hj⟩ := h.1 i hi
    exact ⟨s, hg i hi s hs, hj⟩
  · obtain ⟨i, hi, s, hs, he⟩ := h.2 j hj
    exact ⟨i, hi, s, hg i hi s hs, he⟩

/-- The edges of triangles, quadrilaterals and polygons, called by index in Python, are the sides of the boundary; all
other numbers raise an exception, except for polygons: there the numbers from `numEdges()` on are undefined behaviour. -/
theorem C138_edges_partial (g : PyThing) (l : List V3) (h : HasBoundary g l) (hl : l.length ≤ 2 ^ 32) :
    g.numEdges = .val l.length ∧ ClosedBoundary (fun i => g.edge [.int i] []) l.length l ∧
      (∀ x, ¬ ValidIndex x l.length → (¬ ∃ pg, g = .polygon pg) ∨ ¬ ValidIndex x (2 ^ 32) →
        (g.edge [x] []).isThrown) ∧
      ∀ pg, g = .polygon pg → ∀ x, ¬ ValidIndex x l.length → ValidIndex x (2 ^ 32) → g.edge [x] [] = .ub := by
  have hval : ∀ (f : ℕ → Outcome Segment) (n : ℕ), n ≤ 2 ^ 32 → ∀ i < n, ∀ s, f i = .val s →
      pyIndexed "edgeIdx" f [.int i] [] = .val s := by
    intro f n hn i hi s hs
    rw [pyIndexed_val _ _ (.int i) i rfl (by omega), hs]
    rfl
  cases h with
  | triangle a b c =>
      refine ⟨rfl, closedBoundary_python (C82_triangle a b c).2.1 _ (hval _ _ (by norm_num)), ?_,
        fun _ h => by cases h⟩
      intro x hx _
      rcases index_cases x 3 with h | ⟨i, hi, hge, hlt⟩ | ⟨_, h⟩
      · exact absurd h hx
      · rw [PyThing.edge, pyIndexed_val _ _ x i hi hlt]
        obtain ⟨k, rfl⟩ := Nat.exists_eq_add_of_le' hge
        exact trivial
      · rw [PyThing.edge, pyIndexed_invalid _ _ x h]
        exact trivial
  | quadrilateral a b c d =>
      refine ⟨rfl, closedBoundary_python (C82_quadrilateral a b c d).2.1 _ (hval _ _ (by norm_num [Quadrilateral.numEdges])),
        ?_, fun _ h => by cases h⟩
      intro x hx _
      rcases index_cases x 4 with h | ⟨i, hi, hge, hlt⟩ | ⟨_, h⟩
      · exact absurd h hx
      · rw [PyThing.edge, pyIndexed_val _ _ x i hi hlt]
        obtain ⟨k, rfl⟩ := Nat.exists_eq_add_of_le' hge
        exact trivial
      · rw [PyThing.edge, pyIndexed_invalid _ _ x h]
        exact trivial
  | polygon cs pg h =>
      obtain ⟨hc, hn, hb⟩ := C82_polygon l pg h
      refine ⟨by rw [PyThing.numEdges, hn], ?_, ?_, ?_⟩
      · rw [hn] at hb
        exact closedBoundary_python hb _ (hval _ _ hl)
      · rintro x hx (hp | h32)
        · exact absurd ⟨pg, rfl⟩ hp
        · rw [PyThing.edge, pyIndexed_invalid _ _ x h32]
          exact trivial
      · intro pg' _ x hx h32
        obtain ⟨i, hi, hlt⟩ := h32
        rw [PyThing.edge, pyIndexed_val _ _ x i hi hlt, Polygon.edge, hc, if_neg fun h => hx ⟨i, hi, h⟩]
        rfl

theorem box_bounds {lo hi : V3} {b : Box} (h : Box.ofCorners lo hi = .val b) :
    (lo.x ≤ hi.x ∧ lo.y ≤ hi.y ∧ lo.z ≤ hi.z) ∧ Box.lo b = lo ∧ Box.hi b = hi := by
  have hb : lo.x ≤ hi.x ∧ lo.y ≤ hi.y ∧ lo.z ≤ hi.z := by
    by_contra hn
    have := (C13_construction lo hi).2 hn
    rw [h] at this
    exact this
  obtain ⟨b', hb', hlo, hhi⟩ := (C13_construction lo hi).1 hb
  obtain rfl := Outcome.val.inj (h.symm.trans hb')
  exact ⟨hb, hlo, hhi⟩

/-- The loop over the edges of a box in Python: twelve edges, each pair of corners that differ in exactly one
coordinate occurs exactly once; all other numbers raise an exception. -/
theorem C138_box_edges (lo hi : V3) (b : Box) (h : Box.ofCorners lo hi = .val b) (hx : lo.x < hi.x) (hy : lo.y < hi.y)
    (hz : lo.z < hi.z) :
    ∃ es, PyThing.listOf (PyThing.numEdges (.box b)) (fun x => PyThing.edge (.box b) [x] []) = .val es ∧
      es.length = 12 ∧ Indexed (fun x => PyThing.edge (.box b) [x] []) es ∧
      (∀ s ∈ es, Spec.IsBoxCorner lo hi s.source ∧ Spec.IsBoxCorner lo hi s.target ∧
        Spec.DifferInOneCoordinate s.source s.target) ∧
      (∀ p q, Spec.IsBoxCorner lo hi p → Spec.IsBoxCorner lo hi q → Spec.DifferInOneCoordinate p q →
        ∃ s ∈ es, s = ⟨p, q⟩ ∨ s = ⟨q, p⟩) ∧
      es.Pairwise fun s t => s ≠ t ∧ s ≠ ⟨t.target, t.source⟩ := by
  obtain ⟨_, hlo, hhi⟩ := box_bounds h
  obtain ⟨h1, h2, h3, h4⟩ := C13_edges b (by subst hlo hhi; exact hx) (by subst hlo hhi; exact hy)
    (by subst hlo hhi; exact hz)
  rw [hlo, hhi] at h1 h2
  choose e he1 he2 he3 he4 using h1
  let es : List Segment := List.ofFn fun i : Fin 12 => e i i.2
  have hlen : es.length = 12 := List.length_ofFn
  have hget : ∀ i (hi : i < es.length), b.edge i = .val es[i] := by
    intro i hi
    rw [List.getElem_ofFn]
    exact he1 i _
  have hidx : Indexed (fun x => PyThing.edge (.box b) [x] []) es :=
    indexed_of "edgeIdx" b.edge es (by rw [hlen]; norm_num) hget fun i hi => h4 i (by omega)
  refine ⟨es, ?_, hlen, hidx, ?_, ?_, ?_⟩
  · have : PyThing.numEdges (.box b) = .val es.length := by rw [hlen]; rfl
    rw [this]
    exact listOf_val _ es fun i hi => (hidx (.int i)).1 i rfl hi
  · intro s hs
    obtain ⟨i, rfl⟩ := (List.mem_ofFn' _ _).1 hs
    exact ⟨he2 i i.2, he3 i i.2, he4 i i.2⟩
  · intro p q hp hq hd
    obtain ⟨i, hi, hs⟩ := h2 p q hp hq hd
    have hi' : i < es.length := by omega
    refine ⟨es[i], List.getElem_mem hi', ?_⟩
    rw [hget i hi'] at hs
    exact hs.imp Outcome.val.inj Outcome.val.inj
  · rw [List.pairwise_iff_getElem]
    intro i j hi hj hij
    have hi12 : i < 12 := by omega
    have hj12 : j < 12 := by omega
    have := h3 i hi12 j hj12 (es[i]'hi).source (es[i]'hi).target (hget i hi)
    refine ⟨fun hc => ?_, fun hc => ?_⟩
    · exact absurd (this (.inl (by rw [hget j hj, ← hc]))) (by omega)
    · refine absurd (this (.inr ?_)) (by omega)
      rw [hget j hj, hc]

/-- The loop over the faces of a box in Python: six parallelograms that together are the surface of the box; all
other numbers raise an exception. -/
theorem C138_box_faces (lo hi : V3) (b : Box) (h : Box.ofCorners lo hi = .val b) :
    ∃ fs, PyThing.listOf (PyThing.numFaces (.box b)) (fun x => PyThing.face (.box b) [x] []) = .val fs ∧
      fs.length = 6 ∧ Indexed (fun x => PyThing.face (.box b) [x] []) fs ∧
      (∀ f ∈ fs, f.p3 = f.p1 + f.p2 - f.p0) ∧
      ∀ p, Spec.OnBoxBoundary lo hi p ↔ ∃ f ∈ fs, Spec.InParallelogram f.p0 f.p1 f.p2 p := by
  obtain ⟨hb, hlo, hhi⟩ := box_bounds h
  obtain ⟨h1, h2, h3⟩ := C13_faces b (by subst hlo hhi; exact hb.1) (by subst hlo hhi; exact hb.2.1)
    (by subst hlo hhi; exact hb.2.2)
  rw [hlo, hhi] at h2
  choose e he1 he2 using h1
  let fs : List Quadrilateral := List.ofFn fun i : Fin 6 => e i i.2
  have hlen : fs.length = 6 := List.length_ofFn
  have hget : ∀ i (hi : i < fs.length), b.face i = .val fs[i] := by
    intro i hi
    rw [List.getElem_ofFn]
    exact he1 i _
  have hidx : Indexed (fun x => PyThing.face (.box b) [x] []) fs :=
    indexed_of "faceIdx" b.face fs (by rw [hlen]; norm_num) hget fun i hi => h3 i (by omega)
  refine ⟨fs, ?_, hlen, hidx, ?_, ?_⟩
  · have : PyThing.numFaces (.box b) = .val fs.length := by rw [hlen]; rfl
    rw [this]
    exact listOf_val _ fs fun i hi => (hidx (.int i)).1 i rfl hi
  · intro f hf
    obtain ⟨i, rfl⟩ := (List.mem_ofFn' _ _).1 hf
    exact he2 i i.2
  · intro p
    rw [h2 p]
    constructor
    · rintro ⟨i, hi, f, hf, hp⟩
      have hi' : i < fs.length := by omega
      rw [hget i hi'] at hf
      exact ⟨f, Outcome.val.inj hf ▸ List.getElem_mem hi', hp⟩
    · rintro ⟨f, hf, hp⟩
      obtain ⟨i, hi, rfl⟩ := List.getElem_of_mem hf
      exact ⟨i, by omega, _, hget i hi, hp⟩

/-! ## Arguments -/

/-- The index may be passed by position or by name; calls with other arguments, and calls for objects without corners,
raise an exception. -/
theorem C138_arguments (g : PyThing) :
    (∀ x, g.corner [] [("cornerIdx", x)] = g.corner [x] [] ∧ g.edge [] [("edgeIdx", x)] = g.edge [x] [] ∧
      g.face [] [("faceIdx", x)] = g.face [x] []) ∧
    (∀ args kw, (∀ x, (args, kw) ≠ ([x], []) ∧ (args, kw) ≠ ([], [("cornerIdx", x)])) → kw.length ≤ 1 →
      (g.corner args kw).isThrown) ∧
    ((¬ ∃ l, g.numCorners = .val l) → ∀ args kw, (g.corner args kw).isThrown ∧ (g.edge args kw).isThrown ∧
      (g.face args kw).isThrown) := by
  have hk : ∀ (α : Type) (name : String) (f : ℕ → Outcome α) (x : PyNumber),
      pyIndexed name f [] [(name, x)] = pyIndexed name f [x] [] := by
    intro α name f x
    simp [pyIndexed, bindArguments, KwOf.value, KwOf.drop]
  have ho : ∀ (α : Type) (name : String) (f : ℕ → Outcome α) (args : List PyNumber) (kw : KwOf PyNumber),
      (∀ x, (args, kw) ≠ ([x], []) ∧ (args, kw) ≠ ([], [(name, x)])) → kw.length ≤ 1 →
      (pyIndexed name f args kw).isThrown := by
    intro α name f args kw h hl
    have hb : bindArguments [name] args kw = none := by
      rcases args with _ | ⟨a, _ | ⟨b, r⟩⟩
      · rcases kw with _ | ⟨⟨n, v⟩, _ | ⟨w, r⟩⟩
        · rfl
        · have hne : n ≠ name := fun hn => (h v).2 (by rw [hn])
          simp [bindArguments, KwOf.value, hne]
        · simp at hl
      · rcases kw with _ | ⟨w, r⟩
        · exact absurd rfl (h a).1
        · simp [bindArguments]
      · simp [bindArguments]
    rw [pyIndexed, hb]
    exact trivial
  refine ⟨fun x => ?_, fun args kw h hl => ?_, fun h args kw => ?_⟩
  · cases g <;> refine ⟨?_, ?_, ?_⟩ <;> first | rfl | exact hk _ _ _ _
  · cases g <;> first | exact trivial | exact ho _ _ _ _ _ h hl
  · cases g <;> first | exact ⟨trivial, trivial, trivial⟩ | exact absurd ⟨_, rfl⟩ h

/-! ## Examples -/

/-- A triangle in Python: three corners, `corner(-1)`, `corner(1.0)` and `corner(2**32)` raise an exception,
`corner(True)` is the second corner. -/
example (a b c : V3) : HasCorners (.triangle (Triangle.make a b c)) [a, b, c] ∧ ¬ ValidIndex (.int (-1)) 3 ∧
    ¬ ValidIndex (.int (-1)) (2 ^ 32) ∧ ¬ ValidIndex (.float 1) (2 ^ 32) ∧ ¬ ValidIndex (.int (2 ^ 32)) (2 ^ 32) ∧
    PyThing.corner (.triangle (Triangle.make a b c)) [.bool true] [] = .val b := by
  refine ⟨.triangle a b c, ?_, ?_, ?_, ?_, rfl⟩ <;> rintro ⟨i, hi, hl⟩
  · have : (-1 : ℤ) = i := Option.some.inj hi
    omega
  · have : (-1 : ℤ) = i := Option.some.inj hi
    omega
  · cases hi
  · have : (2 ^ 32 : ℤ) = i := Option.some.inj hi
    omega

example : ∃ b, Box.ofCorners 0 ⟨1, 2, 3⟩ = .val b :=
  let ⟨b, h, _⟩ := (C13_construction 0 ⟨1, 2, 3⟩).1 (by norm_num)
  ⟨b, h⟩

example : ∃ pg, HasCorners (.polygon pg) square5 ∧ HasBoundary (.polygon pg) square5 :=
  let ⟨pg, h, _⟩ := polygon_make (cs := square5) (by simp [square5]) square5_proper
  ⟨pg, .polygon _ _ h, .polygon _ _ h⟩

/-- The numbers of corners, edges and faces can be asked for exactly where there are such; other objects have no such
method. -/
theorem C138_counts (g : PyThing) :
    ((∃ n, g.numCorners = .val n) ∨ g.numCorners = .thrown "AttributeError") ∧
    ((∃ n, g.numEdges = .val n) ↔ ∃ n, g.numCorners = .val n) ∧
    ((∃ n, g.numEdges = .val n) ∨ g.numEdges = .thrown "AttributeError") ∧
    ((∃ b, g = .box b) → g.numFaces = .val 6) ∧ ((¬ ∃ b, g = .box b) → g.numFaces = .thrown "AttributeError") := by
  cases g <;> simp [PyThing.numCorners, PyThing.numEdges, PyThing.numFaces]

end Props
