import Verif.Props.PolygonSampler

/-!
# Sampled polygons and quadrilaterals: C27, C28
-/

namespace Props
open Verif Frackit Lemmas

/-- The draws contain admissible values in time: `n` is the first number of corners of at least three
(among the first 99 draws), `Ls` and `Ld` are the first lengths that are not negative (among the
first 100 and 101 draws). -/
structure Admissible (d : PolygonDraws) (n : ℕ) (Ls Ld : ℝ) : Prop where
  unit : UnitDraws d.interval
  corners : ∃ i < 99, Spec.IsFirst (3 ≤ ·) d.corners i ∧ d.corners i = n
  strike : ∃ j < 100, Spec.IsFirst (0 ≤ ·) d.strikeLength j ∧ d.strikeLength j = Ls
  dip : ∃ l ≤ 100, Spec.IsFirst (0 ≤ ·) d.dipLength l ∧ d.dipLength l = Ld

namespace Admissible
variable {d : PolygonDraws} {n : ℕ} {Ls Ld : ℝ} (h : Admissible d n Ls Ld)
include h

theorem three : 3 ≤ n := by
  obtain ⟨i, _, hf, e⟩ := h.corners
  have := hf.1
  simp only [e] at this
  exact_mod_cast this

theorem strike_nonneg : 0 ≤ Ls := by
  obtain ⟨i, _, hf, e⟩ := h.strike
  rw [← e]; exact hf.1

theorem dip_nonneg : 0 ≤ Ld := by
  obtain ⟨i, _, hf, e⟩ := h.dip
  rw [← e]; exact hf.1

theorem placed {sort : List V3 → List V3} (hs : SortsBy edgeAngle sort) :
    ∃ es cs, sampleCorners sort d = .val cs ∧ EdgesFrom es n Ls Ld ∧
      Placed es d.strikeAngle d.dipAngle d.center cs := by
  obtain ⟨i, hi, hfi, ei⟩ := h.corners
  obtain ⟨j, hj, hfj, ej⟩ := h.strike
  obtain ⟨l, hl, hfl, el⟩ := h.dip
  refine sampleCorners_placed hs d h.unit n h.three (i + 1) j l Ls Ld ?_ (by omega) ?_ (by omega) ?_
  · rw [cornersLoop_first _ i hi hfi, ei]
  · rw [lengthLoop_first _ j (by omega) hfj, ej]
  · rw [lengthLoop_first _ l hl hfl, el]

end Admissible

/-- The complete property. -/
def C27_full : Prop :=
  ∀ (sort : List V3 → List V3), SortsBy edgeAngle sort → ∀ (d : PolygonDraws) (n : ℕ) (Ls Ld : ℝ),
    Admissible d n Ls Ld → ∃ cs, sampleCorners sort d = .val cs ∧
      Spec.SampledPolygon n d.strikeAngle d.dipAngle Ls Ld d.center cs

theorem structure_of_placed {es cs : List V3} {n : ℕ} {Ls Ld s t : ℝ} {c : V3} (hn : 3 ≤ n)
    (hLs : 0 ≤ Ls) (hLd : 0 ≤ Ld) (hE : EdgesFrom es n Ls Ld) (hP : Placed es s t c cs) :
    cs.length = n ∧
    (∀ p ∈ cs, Spec.PlanarPolygon (Spec.dipNormal s t) p cs) ∧
    Spec.BoxCenter cs c ∧
    (∃ lo hi, Spec.Extent (Spec.inner (Spec.dipDir s t)) cs lo hi ∧ hi - lo ≤ Ld) ∧
    (∃ lo hi, Spec.Extent (Spec.inner (Spec.strikeDir s)) cs lo hi ∧ hi - lo ≤ Ls) := by
  have hl : 0 < es.length := by rw [hE.length]; omega
  refine ⟨by rw [hP.length, hE.length], hP.planar, hP.choose_spec.2, ?_, ?_⟩
  · obtain ⟨lo, hi, h1, h2⟩ := hP.extent_le _ V3.x (inner_dip es s t) hE.sumX hl
    exact ⟨lo, hi, h1, h2.trans (hE.posX hLd).2⟩
  · obtain ⟨lo, hi, h1, h2⟩ := hP.extent_le _ V3.y (inner_strike es s t) hE.sumY hl
    exact ⟨lo, hi, h1, h2.trans (hE.posY hLs).2⟩

theorem convex_of_placed {es cs : List V3} {n : ℕ} {Ls Ld s t : ℝ} {c : V3} (hn : 3 ≤ n)
    (hLs : 0 ≤ Ls) (hLd : 0 ≤ Ld) (hE : EdgesFrom es n Ls Ld) (hP : Placed es s t c cs)
    (ht : Spec.NoTinyEdges s t cs) :
    Spec.SampledPolygon n s t Ls Ld c cs ∧ Spec.ConvexPolygon (Spec.dipNormal s t) cs := by
  have hl : 0 < es.length := by rw [hE.length]; omega
  obtain ⟨f1, f2, f3, f4, f5, f6⟩ := dip_frame s t
  obtain ⟨b, hb⟩ := hP.corner
  have hcl := hP.length
  have hne : cs ≠ [] := by intro h'; rw [h'] at hcl; simp at hcl; omega
  have hcomp : ∀ x y : ℝ, Spec.inner (Spec.dipDir s t) (x • Spec.dipDir s t + y • Spec.strikeDir s) = x
      ∧ Spec.inner (Spec.strikeDir s) (x • Spec.dipDir s t + y • Spec.strikeDir s) = y := by
    intro x y
    constructor
    · rw [Spec.inner_eq_dot, V3.dot_add, V3.dot_smul, V3.dot_smul, f4, f6]; ring
    · rw [Spec.inner_eq_dot, V3.dot_add, V3.dot_smul, V3.dot_smul, f5, V3.dot_comm, f6]; ring
  have hSE : SortedEdges es := by
    refine ⟨hE.sorted, hE.sumX, hE.sumY, ?_⟩
    intro e he
    obtain ⟨i, hi, rfl⟩ := List.mem_iff_getElem.1 he
    have hmem : ∃ e' ∈ Spec.polyEdges cs, e'.2 - e'.1
        = (es[i]).x • Spec.dipDir s t + (es[i]).y • Spec.strikeDir s := by
      have hgi : es.getD i 0 = es[i] := by
        rw [List.getD_eq_getElem?_getD, List.getElem?_eq_getElem hi]; rfl
      by_cases hlast : i = es.length - 1
      · refine ⟨(cs.getD (cs.length - 1) 0, cs.getD 0 0), (mem_polyEdges cs _ hne).2 (Or.inr rfl), ?_⟩
        have hmm : (cs.getD (cs.length - 1) 0, cs.getD 0 0) ∈ Spec.polyEdges cs :=
          (mem_polyEdges cs _ hne).2 (Or.inr rfl)
        have e0 : localVertex es s t es.length = localVertex es s t 0 := by
          unfold localVertex
          rw [pos_total, pos_total, hE.sumX, hE.sumY]; simp [pos]
        have e1 : localVertex es s t es.length = localVertex es s t (es.length - 1)
            + ((es[i]).x • Spec.dipDir s t + (es[i]).y • Spec.strikeDir s) := by
          conv_lhs => rw [← Nat.sub_add_cancel hl]
          unfold localVertex pos
          rw [Finset.sum_range_succ, Finset.sum_range_succ, ← hlast, hgi]
          module
        simp only
        rw [hcl, hb 0 hl, hb _ (by omega), ← e0, e1]
        module
      · refine ⟨(cs.getD i 0, cs.getD (i + 1) 0),
          (mem_polyEdges cs _ hne).2 (Or.inl ⟨i, by omega, rfl⟩), ?_⟩
        have e1 : localVertex es s t (i + 1) = localVertex es s t i
            + ((es[i]).x • Spec.dipDir s t + (es[i]).y • Spec.strikeDir s) := by
          unfold localVertex pos
          rw [Finset.sum_range_succ, Finset.sum_range_succ, hgi]
          module
        simp only
        rw [hb i hi, hb _ (by omega), e1]
        module
    obtain ⟨e', he', hdiff⟩ := hmem
    have h1 := ht e' he' (Spec.dipDir s t) (by simp)
    have h2 := ht e' he' (Spec.strikeDir s) (by simp)
    rw [hdiff, (hcomp _ _).1] at h1
    rw [hdiff, (hcomp _ _).2] at h2
    exact ⟨h1, h2⟩
  have hconv : Spec.ConvexPolygon (Spec.dipNormal s t) cs := by
    intro e he p hp
    obtain ⟨i, hi, e1, e2⟩ := hP.edge_mem hE.sumX hE.sumY hl e he
    obtain ⟨j, hj, rfl⟩ : ∃ j < es.length, p = localVertex es s t j + b := by
      obtain ⟨j, hj, rfl⟩ := List.mem_iff_getElem.1 hp
      refine ⟨j, by omega, ?_⟩
      rw [← hb j (by omega), List.getD_eq_getElem?_getD, List.getElem?_eq_getElem hj]; rfl
    have hpa : localVertex es s t j + b - e.1
        = (pos V3.x es j - pos V3.x es i) • Spec.dipDir s t
          + (pos V3.y es j - pos V3.y es i) • Spec.strikeDir s := by
      rw [e1, hb i hi]; unfold localVertex; module
    rw [turn_eq, e2, hpa]
    have hcr : ∀ x y x' y' : ℝ, (Spec.dipNormal s t).dot
        ((x • Spec.dipDir s t + y • Spec.strikeDir s).cross
          (x' • Spec.dipDir s t + y' • Spec.strikeDir s)) = x * y' - y * x' := by
      intro x y x' y'
      have : (x • Spec.dipDir s t + y • Spec.strikeDir s).cross
          (x' • Spec.dipDir s t + y' • Spec.strikeDir s)
          = (x * y' - y * x') • ((Spec.dipDir s t).cross (Spec.strikeDir s)) := by
        ext <;> simp [V3.cross] <;> ring
      rw [this, f3, V3.dot_smul]
      have := (isUnit_inner _).1 (dipNormal_unit s t)
      rw [Spec.inner_eq_dot] at this
      rw [this, mul_one]
    rw [hcr]
    exact hSE.left_of_edge i j hi hj.le
  obtain ⟨g1, g2, g3, _, _⟩ := structure_of_placed hn hLs hLd hE hP
  refine ⟨⟨g1, g2, g3, ?_, ?_, Or.inl hconv⟩, hconv⟩
  · obtain ⟨a, b', ha, hb', hab, hd⟩ := hSE.extentX
    obtain ⟨lo, hi, k1, k2⟩ := hP.extent_of _ V3.x (inner_dip es s t) hE.sumX hl a b' ha hb' hab
    exact ⟨lo, hi, k1, by rw [k2, hd]; exact (hE.posX hLd).1, by rw [k2, hd]; exact (hE.posX hLd).2⟩
  · obtain ⟨a, b', ha, hb', hab, hd⟩ := hSE.extentY
    obtain ⟨lo, hi, k1, k2⟩ := hP.extent_of _ V3.y (inner_strike es s t) hE.sumY hl a b' ha hb' hab
    exact ⟨lo, hi, k1, by rw [k2, hd]; exact (hE.posY hLs).1, by rw [k2, hd]; exact (hE.posY hLs).2⟩

/-- **C27 (without convexity and lower bound of the sizes)** For every admissible stream of draws and
every behaviour of the sorting algorithm on equal angles: the number of corners is the one drawn, all
corners are in one plane with the sampled strike and dip, the bounding box is centred at the
sampled point, and the sizes in dip and strike direction are at most the sampled lengths. -/
theorem C27_structure (sort : List V3 → List V3) (hs : SortsBy edgeAngle sort) (d : PolygonDraws)
    (n : ℕ) (Ls Ld : ℝ) (h : Admissible d n Ls Ld) :
    ∃ cs, sampleCorners sort d = .val cs ∧ cs.length = n ∧
      (∀ p ∈ cs, Spec.PlanarPolygon (Spec.dipNormal d.strikeAngle d.dipAngle) p cs) ∧
      Spec.BoxCenter cs d.center ∧
      (∃ lo hi, Spec.Extent (Spec.inner (Spec.dipDir d.strikeAngle d.dipAngle)) cs lo hi ∧
        hi - lo ≤ Ld) ∧
      (∃ lo hi, Spec.Extent (Spec.inner (Spec.strikeDir d.strikeAngle)) cs lo hi ∧ hi - lo ≤ Ls) := by
  obtain ⟨es, cs, h1, h2, h3⟩ := h.placed hs
  exact ⟨cs, h1, structure_of_placed h.three h.strike_nonneg h.dip_nonneg h2 h3⟩

/-- **C27 (partial: polygons without tiny edge components)** If no edge of the result has a component in
dip or strike direction that is smaller than 10⁻⁶ but not zero, the complete property holds; the
corners are then in counter-clockwise order. -/
theorem C27_convex_partial (sort : List V3 → List V3) (hs : SortsBy edgeAngle sort)
    (d : PolygonDraws) (n : ℕ) (Ls Ld : ℝ) (h : Admissible d n Ls Ld) (cs : List V3)
    (hr : sampleCorners sort d = .val cs) (ht : Spec.NoTinyEdges d.strikeAngle d.dipAngle cs) :
    Spec.SampledPolygon n d.strikeAngle d.dipAngle Ls Ld d.center cs ∧
      Spec.ConvexPolygon (Spec.dipNormal d.strikeAngle d.dipAngle) cs := by
  obtain ⟨es, cs', h1, h2, h3⟩ := h.placed hs
  rw [hr] at h1
  cases h1
  exact convex_of_placed h.three h.strike_nonneg h.dip_nonneg h2 h3 ht

/-- **C27** Quadrilaterals are sampled as polygons with four corners; the corners are passed so that the
boundary of the quadrilateral is the one of the polygon. -/
theorem C27_quadrilateral (sort : List V3 → List V3) (hs : SortsBy edgeAngle sort)
    (d : PolygonDraws) (Ls Ld : ℝ) (h : Admissible { d with corners := fun _ => 4 } 4 Ls Ld) :
    ∃ q, sampleQuadrilateral sort d = .val q ∧
      (∀ p ∈ [q.p0, q.p1, q.p3, q.p2],
        Spec.PlanarPolygon (Spec.dipNormal d.strikeAngle d.dipAngle) p [q.p0, q.p1, q.p3, q.p2]) ∧
      Spec.BoxCenter [q.p0, q.p1, q.p3, q.p2] d.center ∧
      (Spec.NoTinyEdges d.strikeAngle d.dipAngle [q.p0, q.p1, q.p3, q.p2] →
        Spec.SampledPolygon 4 d.strikeAngle d.dipAngle Ls Ld d.center [q.p0, q.p1, q.p3, q.p2] ∧
        Spec.ConvexPolygon (Spec.dipNormal d.strikeAngle d.dipAngle) [q.p0, q.p1, q.p3, q.p2]) := by
  obtain ⟨cs, h1, h2, h3, h4, _⟩ := C27_structure sort hs _ 4 Ls Ld h
  obtain ⟨c0, c1, c2, c3, rfl⟩ : ∃ c0 c1 c2 c3, cs = [c0, c1, c2, c3] := by
    match cs, h2 with
    | [a, b, c, d], _ => exact ⟨a, b, c, d, rfl⟩
  refine ⟨Quadrilateral.make c0 c1 c3 c2, ?_, h3, h4, ?_⟩
  · unfold sampleQuadrilateral; rw [h1]; rfl
  · intro ht
    exact C27_convex_partial sort hs _ 4 Ls Ld h _ h1 ht

/-! ## A polygon that is not convex -/

/-- Insertion sort by angle (stable). -/
noncomputable def stableSort (es : List V3) : List V3 :=
  open Classical in es.insertionSort fun a b => edgeAngle a ≤ edgeAngle b

theorem stableSort_sorts : SortsBy edgeAngle stableSort := by
  refine ⟨fun xs => List.perm_insertionSort _ _, fun xs => ?_⟩
  have : Std.Total (fun a b : V3 => edgeAngle a ≤ edgeAngle b) := ⟨fun a b => le_total _ _⟩
  have : IsTrans V3 (fun a b : V3 => edgeAngle a ≤ edgeAngle b) := ⟨fun a b c => le_trans⟩
  exact List.pairwise_insertionSort _ _

/-- Draws of the example: four corners, the values 0, 1/3, 2/3, 1 in both directions, and lengths of
10⁻⁷. -/
noncomputable def tinyDraws : PolygonDraws where
  corners := fun _ => 4
  interval := fun k => ((k % 4 : ℕ) : ℝ) / 3
  strikeLength := fun _ => 1 / 10 ^ 7
  dipLength := fun _ => 1 / 10 ^ 7
  strikeAngle := 0
  dipAngle := 0
  center := 0

theorem tinyDraws_admissible : Admissible tinyDraws 4 (1 / 10 ^ 7) (1 / 10 ^ 7) := by
  refine ⟨fun k => ⟨?_, ?_⟩, ⟨0, by omega, ⟨by norm_num [tinyDraws], by intro k hk; omega⟩, rfl⟩,
    ⟨0, by omega, ⟨by norm_num [tinyDraws], by intro k hk; omega⟩, rfl⟩,
    ⟨0, by omega, ⟨by norm_num [tinyDraws], by intro k hk; omega⟩, rfl⟩⟩
  · simp only [tinyDraws]; positivity
  · simp only [tinyDraws]
    have : ((k % 4 : ℕ) : ℝ) ≤ 3 := by exact_mod_cast (by omega : k % 4 ≤ 3)
    linarith

theorem sortReals_eq {xs ys : List ℝ} (hp : ys.Perm xs) (hs : ys.Pairwise (· ≤ ·)) :
    sortReals xs = ys := by
  unfold sortReals
  refine List.Perm.eq_of_pairwise (le := (· ≤ ·)) ?_ (List.pairwise_insertionSort _ _) hs ?_
  · intro a b _ _ h1 h2; exact le_antisymm h1 h2
  · exact (List.perm_insertionSort _ _).trans hp.symm

theorem tiny_deltas : coordinateDeltas [0, 1 / 3, 2 / 3, 1] = .val [1 / 3, 2 / 3, -2 / 3, -1 / 3] := by
  unfold coordinateDeltas takeMin takeMax
  have h1 : List.argmin (id : ℝ → ℝ) [0, 1 / 3, 2 / 3, 1] = some 0 := by
    norm_num [List.argmin, List.argAux]
  have h2 : List.argmax (id : ℝ → ℝ) [1 / 3, 2 / 3, 1] = some 1 := by
    norm_num [List.argmax, List.argAux]
  have e1 : ([0, 1 / 3, 2 / 3, 1] : List ℝ).erase 0 = [1 / 3, 2 / 3, 1] := by simp
  have e2 : ([1 / 3, 2 / 3, 1] : List ℝ).erase 1 = [1 / 3, 2 / 3] := by
    norm_num [List.erase_cons]
  rw [h1]
  simp only [Outcome.val_bind]
  rw [e1, h2]
  simp only [Outcome.val_bind]
  rw [e2]
  have s1 : sortReals [0, 1 / 3] = [0, 1 / 3] := sortReals_eq (List.Perm.refl _) (by norm_num)
  have s2 : sortReals [0, 2 / 3] = [0, 2 / 3] := sortReals_eq (List.Perm.refl _) (by norm_num)
  have c1 : ¬ ((0 : ℝ) > 1 / 10) := by norm_num
  have c2 : ¬ ((1 : ℝ) < 9 / 10) := by norm_num
  simp only [if_neg c1, if_neg c2, everySecond, s1, s2, Outcome.pure_eq]
  norm_num [differences]

theorem tiny_combined : combineDeltas [1 / 3, 2 / 3, -2 / 3, -1 / 3] [1 / 3, 2 / 3, -2 / 3, -1 / 3]
    = .val [(-2 / 3, 2 / 3), (-1 / 3, -2 / 3), (1 / 3, 1 / 3), (2 / 3, -1 / 3)] := by
  have s1 : sortReals [1 / 3, 2 / 3, -2 / 3, -1 / 3] = [-2 / 3, -1 / 3, 1 / 3, 2 / 3] := by
    refine sortReals_eq ?_ (by norm_num)
    refine (List.perm_append_comm (l₁ := [-2 / 3, -1 / 3]) (l₂ := [1 / 3, 2 / 3]))
  have h1 : List.argmax (id : ℝ → ℝ) [-2 / 3, -1 / 3, 1 / 3, 2 / 3] = some (2 / 3) := by
    norm_num [List.argmax, List.argAux]
  have h2 : List.argmax (id : ℝ → ℝ) [1 / 3, 2 / 3, -2 / 3, -1 / 3] = some (2 / 3) := by
    norm_num [List.argmax, List.argAux]
  unfold combineDeltas takeMax
  simp only [s1, h1, Outcome.val_bind]
  rw [h2]
  simp only [Outcome.val_bind]
  have a1 : List.argmin (fun dy : ℝ => |2 / 3 * (2 / 3) + 2 / 3 * (2 / 3) - -2 / 3 * (-2 / 3) - dy * dy|)
      [1 / 3, 2 / 3, -2 / 3, -1 / 3] = some (2 / 3) := by
    norm_num [List.argmin, List.argAux, abs_of_nonneg, abs_of_nonpos]
  have b1 : ([1 / 3, 2 / 3, -2 / 3, -1 / 3] : List ℝ).erase (2 / 3) = [1 / 3, -2 / 3, -1 / 3] := by
    norm_num [List.erase_cons]
  have a2 : List.argmin (fun dy : ℝ => |2 / 3 * (2 / 3) + 2 / 3 * (2 / 3) - -1 / 3 * (-1 / 3) - dy * dy|)
      [1 / 3, -2 / 3, -1 / 3] = some (-2 / 3) := by
    norm_num [List.argmin, List.argAux, abs_of_nonneg, abs_of_nonpos]
  have b2 : ([1 / 3, -2 / 3, -1 / 3] : List ℝ).erase (-2 / 3) = [1 / 3, -1 / 3] := by
    norm_num [List.erase_cons]
  have a3 : List.argmin (fun dy : ℝ => |2 / 3 * (2 / 3) + 2 / 3 * (2 / 3) - 1 / 3 * (1 / 3) - dy * dy|)
      [1 / 3, -1 / 3] = some (1 / 3) := by
    norm_num [List.argmin, List.argAux, abs_of_nonneg, abs_of_nonpos]
  have b3 : ([1 / 3, -1 / 3] : List ℝ).erase (1 / 3) = [-1 / 3] := by
    norm_num [List.erase_cons]
  have a4 : List.argmin (fun dy : ℝ => |2 / 3 * (2 / 3) + 2 / 3 * (2 / 3) - 2 / 3 * (2 / 3) - dy * dy|)
      [-1 / 3] = some (-1 / 3) := by
    simp [List.argmin, List.argAux]
  simp only [pairDeltas, takeMin, a1, b1, a2, b2, a3, b3, a4, Outcome.val_bind, Outcome.pure_eq]

theorem tiny_edges : planeEdges stableSort
      [(-2 / 3, 2 / 3), (-1 / 3, -2 / 3), (1 / 3, 1 / 3), (2 / 3, -1 / 3)] (1 / 10 ^ 7) (1 / 10 ^ 7)
    = [⟨1 / 3 * (1 / 10 ^ 7), 1 / 3 * (1 / 10 ^ 7), 0⟩, ⟨2 / 3 * (1 / 10 ^ 7), -1 / 3 * (1 / 10 ^ 7), 0⟩,
       ⟨-2 / 3 * (1 / 10 ^ 7), 2 / 3 * (1 / 10 ^ 7), 0⟩,
       ⟨-1 / 3 * (1 / 10 ^ 7), -2 / 3 * (1 / 10 ^ 7), 0⟩] := by
  have a1 : edgeAngle ⟨1 / 3 * (1 / 10 ^ 7), 1 / 3 * (1 / 10 ^ 7), 0⟩ = 0 := by
    unfold edgeAngle
    rw [if_pos (by rw [abs_lt]; norm_num), if_pos (by norm_num)]
  have a2 : edgeAngle ⟨2 / 3 * (1 / 10 ^ 7), -1 / 3 * (1 / 10 ^ 7), 0⟩ = 0 := by
    unfold edgeAngle
    rw [if_pos (by rw [abs_lt]; norm_num), if_pos (by norm_num)]
  have a3 : edgeAngle ⟨-2 / 3 * (1 / 10 ^ 7), 2 / 3 * (1 / 10 ^ 7), 0⟩ = Real.pi := by
    unfold edgeAngle
    rw [if_pos (by rw [abs_lt]; norm_num), if_neg (by norm_num)]
  have a4 : edgeAngle ⟨-1 / 3 * (1 / 10 ^ 7), -2 / 3 * (1 / 10 ^ 7), 0⟩ = Real.pi := by
    unfold edgeAngle
    rw [if_pos (by rw [abs_lt]; norm_num), if_neg (by norm_num)]
  have hpi : ¬ Real.pi ≤ 0 := not_le.2 Real.pi_pos
  unfold planeEdges stableSort
  simp only [List.map_cons, List.map_nil, List.insertionSort_cons, List.insertionSort_nil,
    List.orderedInsert_nil, List.orderedInsert_cons, a1, a2, a3, a4, le_refl, if_true, hpi, if_false]

/-- **C27 (disproof)** Edges with components below 10⁻⁶ may be put in a wrong order: the result is then not
convex. -/
theorem C27_disproof : ¬ C27_full := by
  intro h
  obtain ⟨cs, h1, h2⟩ := h stableSort stableSort_sorts tinyDraws 4 _ _ tinyDraws_admissible
  have hc : cornersLoop tinyDraws.corners 0 0 = (4, 1) :=
    cornersLoop_first _ 0 (by omega) ⟨by norm_num [tinyDraws], by intro k hk; omega⟩
  have hs : lengthLoop tinyDraws.strikeLength (tinyDraws.strikeLength 0) 0 = (1 / 10 ^ 7, 0) :=
    lengthLoop_first _ 0 (by omega) ⟨by norm_num [tinyDraws], by intro k hk; omega⟩
  have hd : lengthLoop tinyDraws.dipLength (tinyDraws.dipLength 0) 0 = (1 / 10 ^ 7, 0) :=
    lengthLoop_first _ 0 (by omega) ⟨by norm_num [tinyDraws], by intro k hk; omega⟩
  have i1 : intervalValues tinyDraws.interval 0 4 = [0, 1 / 3, 2 / 3, 1] := by
    norm_num [intervalValues, tinyDraws, List.range_succ]
  have i2 : intervalValues tinyDraws.interval 4 4 = [0, 1 / 3, 2 / 3, 1] := by
    norm_num [intervalValues, tinyDraws, List.range_succ]
  unfold sampleCorners at h1
  rw [hc] at h1
  simp only [show ((4 : ℤ).toNat) = 4 from rfl, i1, i2, tiny_deltas, tiny_combined, Outcome.val_bind, hs,
    hd, tiny_edges, if_neg (show ¬ (1 : ℕ) = 100 by omega), if_neg (show ¬ (0 : ℕ) = 100 by omega)] at h1
  obtain ⟨b, e, _⟩ := placePolygon_spec
    [⟨1 / 3 * (1 / 10 ^ 7), 1 / 3 * (1 / 10 ^ 7), 0⟩, ⟨2 / 3 * (1 / 10 ^ 7), -1 / 3 * (1 / 10 ^ 7), 0⟩,
       ⟨-2 / 3 * (1 / 10 ^ 7), 2 / 3 * (1 / 10 ^ 7), 0⟩,
       ⟨-1 / 3 * (1 / 10 ^ 7), -2 / 3 * (1 / 10 ^ 7), 0⟩] (by simp) (by simp) 0 0 0
  have h1' := h1.symm.trans e
  cases h1'
  have hb := h2.convex
  simp only [List.length_cons, List.length_nil, zero_add, List.range_succ, List.range_zero,
    List.nil_append, List.cons_append, List.map_cons, List.map_nil, Nat.reduceAdd] at hb
  rcases hb with hb | hb
  · have := hb (_, _) ((mem_polyEdges _ _ (by simp)).2 (Or.inl ⟨0, by simp, rfl⟩)) _
      (List.mem_cons_of_mem _ (List.mem_cons_of_mem _ List.mem_cons_self))
    norm_num [turn_eq, localVertex, pos, Finset.sum_range_succ, Spec.dipDir, Spec.strikeDir, Spec.dipNormal,
      V3.dot, V3.cross, tinyDraws] at this
  · have := hb (_, _) ((mem_polyEdges _ _ (by simp)).2 (Or.inl ⟨1, by simp, rfl⟩)) _
      (List.mem_cons_of_mem _ (List.mem_cons_of_mem _ (List.mem_cons_of_mem _ List.mem_cons_self)))
    norm_num [turn_eq, localVertex, pos, Finset.sum_range_succ, Spec.dipDir, Spec.strikeDir, Spec.dipNormal,
      V3.dot, V3.cross, tinyDraws] at this

end Props
