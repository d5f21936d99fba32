import Verif.Props.GeneratedNetwork

/-!
# C126: a network of example 1 with the exact library
-/

namespace Props
open Verif Frackit Lemmas
open Spec.Constraints (parts NoIntersection AtLeast AcceptBy NotLess)

/-- Draws of horizontal quadrilaterals above each other. -/
noncomputable def highDraws (k : ℕ) : PolygonDraws where
  corners := fun _ => 4
  interval := fun k => ((k % 4 : ℕ) : ℝ) / 3
  strikeLength := fun _ => 3 / 5
  dipLength := fun _ => 3 / 5
  strikeAngle := 0
  dipAngle := 0
  center := ⟨0, 0, 3 * k⟩

theorem highDraws_quad (k : ℕ) : QuadDraw (highDraws k) := by
  refine ⟨3 / 5, 3 / 5, ⟨fun k => ⟨?_, ?_⟩, ⟨0, by omega, ⟨by norm_num, by intro k hk; omega⟩, rfl⟩,
    ⟨0, by omega, ⟨by norm_num [highDraws], by intro k hk; omega⟩, rfl⟩,
    ⟨0, by omega, ⟨by norm_num [highDraws], by intro k hk; omega⟩, rfl⟩⟩, by norm_num, by norm_num⟩
  · simp only [highDraws]; positivity
  · simp only [highDraws]
    have : ((k % 4 : ℕ) : ℝ) ≤ 3 := by exact_mod_cast (by omega : k % 4 ≤ 3)
    linarith

theorem high_edges : planeEdges stableSort
      [(-2 / 3, 2 / 3), (-1 / 3, -2 / 3), (1 / 3, 1 / 3), (2 / 3, -1 / 3)] (3 / 5) (3 / 5)
    = [⟨1 / 3 * (3 / 5), 1 / 3 * (3 / 5), 0⟩, ⟨-2 / 3 * (3 / 5), 2 / 3 * (3 / 5), 0⟩,
       ⟨-1 / 3 * (3 / 5), -2 / 3 * (3 / 5), 0⟩, ⟨2 / 3 * (3 / 5), -1 / 3 * (3 / 5), 0⟩] := by
  have a1 : edgeAngle ⟨1 / 3 * (3 / 5), 1 / 3 * (3 / 5), 0⟩ = Real.pi / 4 := by
    unfold edgeAngle
    rw [if_neg (by rw [abs_lt]; norm_num), if_neg (by rw [abs_lt]; norm_num)]
    norm_num
    linarith [Real.pi_pos]
  have a3 : edgeAngle ⟨-2 / 3 * (3 / 5), 2 / 3 * (3 / 5), 0⟩ = Real.pi - Real.pi / 4 := by
    unfold edgeAngle
    rw [if_neg (by rw [abs_lt]; norm_num), if_neg (by rw [abs_lt]; norm_num)]
    norm_num
    ring
  have a4 : edgeAngle ⟨-1 / 3 * (3 / 5), -2 / 3 * (3 / 5), 0⟩ = Real.pi + Real.arctan 2 := by
    unfold edgeAngle
    rw [if_neg (by rw [abs_lt]; norm_num), if_neg (by rw [abs_lt]; norm_num)]
    norm_num
  have a2 : edgeAngle ⟨2 / 3 * (3 / 5), -1 / 3 * (3 / 5), 0⟩ = 2 * Real.pi - Real.arctan (1 / 2) := by
    have h : Real.arctan (1 / 2) > 0 := by
      rw [← Real.arctan_zero]; exact Real.arctan_strictMono (by norm_num)
    unfold edgeAngle
    rw [if_neg (by rw [abs_lt]; norm_num), if_neg (by rw [abs_lt]; norm_num)]
    have e : (-1 / 3 * (3 / 5) : ℝ) / (2 / 3 * (3 / 5)) = -(1 / 2) := by norm_num
    simp only [e, Real.arctan_neg]
    rw [if_pos (by norm_num), if_pos (by linarith)]
    ring
  have h2 : Real.arctan 2 < Real.pi / 2 := Real.arctan_lt_pi_div_two _
  have h1 : Real.arctan (1 / 2) < Real.pi / 2 := Real.arctan_lt_pi_div_two _
  have h3 : 0 < Real.arctan 2 := by
    rw [← Real.arctan_zero]; exact Real.arctan_strictMono (by norm_num)
  have hpi := Real.pi_pos
  have c1 : ¬ Real.pi - Real.pi / 4 ≤ Real.pi / 4 := by linarith
  have c2 : ¬ Real.pi + Real.arctan 2 ≤ Real.pi / 4 := by linarith
  have c3 : Real.pi / 4 ≤ 2 * Real.pi - Real.arctan (1 / 2) := by linarith
  have c4 : Real.pi + Real.arctan 2 ≤ 2 * Real.pi - Real.arctan (1 / 2) := by linarith
  have c5 : Real.pi - Real.pi / 4 ≤ Real.pi + Real.arctan 2 := by linarith
  unfold planeEdges stableSort
  simp only [List.map_cons, List.map_nil, List.insertionSort_cons, List.insertionSort_nil,
    List.orderedInsert_nil, List.orderedInsert_cons, a1, a2, a3, a4, le_refl, if_true, c1, c2, c3, c4, c5, if_false]

/-- The quadrilateral made of these draws. -/
theorem high_quad (k : ℕ) : ∃ b : V3, sampleQuadrilateral stableSort (highDraws k) =
    .val (Quadrilateral.make b (⟨1 / 5, 1 / 5, 0⟩ + b) (⟨-2 / 5, 1 / 5, 0⟩ + b) (⟨-1 / 5, 3 / 5, 0⟩ + b)) := by
  have hc : cornersLoop (fun _ => 4) 0 0 = (4, 1) :=
    cornersLoop_first _ 0 (by omega) ⟨by norm_num, by intro k hk; omega⟩
  have hs : lengthLoop (highDraws k).strikeLength ((highDraws k).strikeLength 0) 0 = (3 / 5, 0) :=
    lengthLoop_first _ 0 (by omega) ⟨by norm_num [highDraws], by intro k hk; omega⟩
  have hd : lengthLoop (highDraws k).dipLength ((highDraws k).dipLength 0) 0 = (3 / 5, 0) :=
    lengthLoop_first _ 0 (by omega) ⟨by norm_num [highDraws], by intro k hk; omega⟩
  have i1 : intervalValues (highDraws k).interval 0 4 = [0, 1 / 3, 2 / 3, 1] := by
    norm_num [intervalValues, highDraws, List.range_succ]
  have i2 : intervalValues (highDraws k).interval 4 4 = [0, 1 / 3, 2 / 3, 1] := by
    norm_num [intervalValues, highDraws, List.range_succ]
  obtain ⟨b, e, _⟩ := placePolygon_spec
    [⟨1 / 3 * (3 / 5), 1 / 3 * (3 / 5), 0⟩, ⟨-2 / 3 * (3 / 5), 2 / 3 * (3 / 5), 0⟩,
       ⟨-1 / 3 * (3 / 5), -2 / 3 * (3 / 5), 0⟩, ⟨2 / 3 * (3 / 5), -1 / 3 * (3 / 5), 0⟩] (by simp) (by simp) 0 0
       ⟨0, 0, 3 * k⟩
  refine ⟨b, ?_⟩
  have hcs : sampleCorners stableSort { highDraws k with corners := fun _ => 4 } =
      .val [b, ⟨1 / 5, 1 / 5, 0⟩ + b, ⟨-1 / 5, 3 / 5, 0⟩ + b, ⟨-2 / 5, 1 / 5, 0⟩ + b] := by
    unfold sampleCorners
    simp only [hc, show ((4 : ℤ).toNat) = 4 from rfl, i1, i2, tiny_deltas, tiny_combined, Outcome.val_bind, hs,
      hd, high_edges, if_neg (show ¬ (1 : ℕ) = 100 by omega), if_neg (show ¬ (0 : ℕ) = 100 by omega)]
    refine e.trans ?_
    congr 1
    simp only [List.length_cons, List.length_nil, zero_add, List.range_succ, List.range_zero,
      List.nil_append, List.cons_append, List.map_cons, List.map_nil, Nat.reduceAdd, List.cons.injEq, and_true]
    refine ⟨?_, ?_, ?_, ?_⟩ <;>
    · ext <;> norm_num [localVertex, pos, Finset.sum_range_succ, Spec.dipDir, Spec.strikeDir]
  unfold sampleQuadrilateral
  rw [hcs]
  rfl

theorem high_ordinary (b : V3) : Ordinary 0 0
    (Quadrilateral.make b (⟨1 / 5, 1 / 5, 0⟩ + b) (⟨-2 / 5, 1 / 5, 0⟩ + b) (⟨-1 / 5, 3 / 5, 0⟩ + b)) := by
  refine ⟨?_, ?_, ?_⟩
  · intro e he g hg
    simp only [Quadrilateral.make, Spec.polyEdges, List.tail_cons, List.cons_append, List.nil_append,
      List.zip_cons_cons, List.take_succ_cons, List.take_zero, List.zip_nil_right, List.mem_cons, List.not_mem_nil, or_false] at he hg
    right
    rcases he with rfl | rfl | rfl | rfl <;> rcases hg with rfl | rfl <;>
      norm_num [Spec.inner, Spec.dipDir, Spec.strikeDir, le_abs]
  · simp only [Quadrilateral.make, List.nodup_cons, List.mem_cons, List.not_mem_nil, or_false, not_or, V3.ext_iff]
    norm_num
  · rintro ⟨q, d, ⟨t0, h0⟩, ⟨t1, h1⟩, ⟨t2, h2⟩⟩
    simp only [Quadrilateral.make, V3.ext_iff, V3.add_x, V3.add_y, V3.smul_x, V3.smul_y] at h0 h1 h2
    obtain ⟨a0, b0, _⟩ := h0
    obtain ⟨a1, b1, _⟩ := h1
    obtain ⟨a2, b2, _⟩ := h2
    have e1 : (1 / 5 : ℝ) = (t1 - t0) * d.x := by linarith
    have e2 : (1 / 5 : ℝ) = (t1 - t0) * d.y := by linarith
    have e3 : (-2 / 5 : ℝ) = (t2 - t0) * d.x := by linarith
    have e4 : (1 / 5 : ℝ) = (t2 - t0) * d.y := by linarith
    have : (1 / 5 : ℝ) * (1 / 5) = 1 / 5 * (-2 / 5) := by
      calc (1 / 5 : ℝ) * (1 / 5) = ((t1 - t0) * d.x) * ((t2 - t0) * d.y) := by rw [← e1, ← e4]
        _ = ((t1 - t0) * d.y) * ((t2 - t0) * d.x) := by ring
        _ = _ := by rw [← e2, ← e3]
    norm_num at this

/-- Two of these quadrilaterals, in a distance of at least 3. -/
theorem high_empty {b c : V3} (h : 3 ≤ |b.z - c.z|) {q r : Quadrilateral}
    (eq : q = Quadrilateral.make b (⟨1 / 5, 1 / 5, 0⟩ + b) (⟨-2 / 5, 1 / 5, 0⟩ + b) (⟨-1 / 5, 3 / 5, 0⟩ + b))
    (er : r = Quadrilateral.make c (⟨1 / 5, 1 / 5, 0⟩ + c) (⟨-2 / 5, 1 / 5, 0⟩ + c) (⟨-1 / 5, 3 / 5, 0⟩ + c))
    (hq : RegularQuad ⟨0, 0, 1⟩ q) (hr : RegularQuad ⟨0, 0, 1⟩ r) {eps : ℝ} (he : eps ≤ 1)
    (L : LibraryKernel) (hN : NeverFails L.isk.shapes) :
    intersect L.isk (.geom (.quadrilateral q)) (.geom (.quadrilateral r)) eps = .val (.geoms (.single .empty)) := by
  have conv : ∀ b : V3, (Quadrilateral.make b (⟨1 / 5, 1 / 5, 0⟩ + b) (⟨-2 / 5, 1 / 5, 0⟩ + b)
      (⟨-1 / 5, 3 / 5, 0⟩ + b)).isConvex := by
    intro b
    norm_num [Quadrilateral.make, quadConvexity, V3.dot, V3.cross]
  have hc1 : q.isConvex := by rw [eq]; exact conv b
  have hc2 : r.isConvex := by rw [er]; exact conv c
  have algo : intersectQuadQuad L.isk.algo q r (L.isk.ops (.quadrilateral q)) (L.isk.ops (.quadrilateral r)) eps =
      .val .empty := by
    obtain ⟨f1, hf1⟩ := hq.face (L.isk.ops (.quadrilateral q))
    obtain ⟨f2, hf2⟩ := hr.face (L.isk.ops (.quadrilateral r))
    obtain ⟨pl1, hp1, c1, n1⟩ := hq.exists_plane
    obtain ⟨pl2, hp2, c2, n2⟩ := hr.exists_plane
    obtain rfl : pl1 = f1.plane := Outcome.val.inj (hp1.symm.trans (quadFace_parts hf1).1)
    obtain rfl : pl2 = f2.plane := Outcome.val.inj (hp2.symm.trans (quadFace_parts hf2).1)
    unfold intersectQuadQuad
    rw [if_neg (by simp [hc1, hc2]), hf1, hf2]
    simp only [Outcome.val_bind]
    have z1 : f1.plane.supp.z = b.z := by
      have := c1 q.p0 (by simp)
      rw [eq] at this
      rcases n1 with h | h <;> simp [Spec.OnPlane, Spec.inner, h, Quadrilateral.make] at this <;> linarith
    have z2 : f2.plane.supp.z = c.z := by
      have := c2 r.p0 (by simp)
      rw [er] at this
      rcases n2 with h | h <;> simp [Spec.OnPlane, Spec.inner, h, Quadrilateral.make] at this <;> linarith
    have hpar : gpIsParallel f1.plane.normal f2.plane.normal angular := by
      rcases n1 with h1 | h1 <;> rcases n2 with h2 | h2 <;>
        norm_num [gpIsParallel, gpAngle, h1, h2, V3.dot, V3.len, V3.sqLen, angular]
    unfold intersectPlanarPlanar intersectPlanePlane
    rw [if_pos hpar, if_neg]
    · rfl
    · intro hcon
      have hcon : |(f2.plane.supp - f1.plane.supp).dot f1.plane.normal| < eps := hcon
      have : |(f2.plane.supp - f1.plane.supp).dot f1.plane.normal| = |b.z - c.z| := by
        rcases n1 with h | h <;> simp [V3.dot, h, z1, z2, abs_sub_comm]
      linarith
  show preChecked L.isk (.geom (.quadrilateral q)) (.geom (.quadrilateral r)) eps emptySingle
    (singleResult (intersectQuadQuad _ _ _ _ _ _)) = _
  rw [algo]
  obtain ⟨s, hs⟩ := (C72_supported L.isk.shapes (.quadrilateral q)).1 hN hq.figure (by simp) (by simp) (by simp [ClosedArc])
  obtain ⟨t, ht⟩ := (C72_supported L.isk.shapes (.quadrilateral r)).1 hN hr.figure (by simp) (by simp) (by simp [ClosedArc])
  unfold preChecked getBoundingBox
  simp only [hs, ht, Outcome.val_bind, Outcome.pure_eq]
  split_ifs <;> rfl

theorem hull_height {cs : List V3} {z : ℝ} (h : ∀ c ∈ cs, c.z = z) {p : V3} (hp : Spec.InHull cs p) : p.z = z := by
  obtain ⟨w, hl, h1, hs, h2, h3, e⟩ := hp
  rw [e, ← one_mul z, ← hs]
  clear e hs h1 h2 h3
  induction w generalizing cs with
  | nil => simp
  | cons r w ih =>
    match cs, hl with
    | c :: cs, hl =>
      rw [List.zipWith_cons_cons, List.sum_cons, List.sum_cons, h c (by simp),
        ih (fun c hc => h c (List.mem_cons_of_mem _ hc)) (by simpa using hl)]
      ring

theorem bounded_extrema {s t : Shape} (hs : s.points.Nonempty) (ht : t.points.Nonempty) :
    ∃ d, boundedKernel.extrema s t = some d := by
  obtain ⟨d, hd, _⟩ := ideal_extrema hs ht
  refine ⟨d, ?_⟩
  unfold distShapes at hd
  show idealKernel.extrema s t = some d
  cases h : idealKernel.extrema s t with
  | none => rw [h] at hd; cases hd
  | some r => rw [h] at hd; cases hd; rfl

/-- The quadrilaterals made of the draws are compatible with each other. -/
theorem high_compatible : ∃ q : ℕ → Quadrilateral, (∀ k, sampleQuadrilateral stableSort (highDraws k) = .val (q k)) ∧
    (∀ k, Ordinary 0 0 (q k)) ∧ ∀ i j, i ≠ j → ∀ angle : ℝ,
      Spec.Network.Compatible (libraryEngine exactLibrary) 0.05 angle 0.05 0.05
        (.geom (.quadrilateral (q i))) (.geom (.quadrilateral (q j))) := by
  choose b hb using high_quad
  refine ⟨fun k => Quadrilateral.make (b k) (⟨1 / 5, 1 / 5, 0⟩ + b k) (⟨-2 / 5, 1 / 5, 0⟩ + b k) (⟨-1 / 5, 3 / 5, 0⟩ + b k),
    hb, fun k => high_ordinary (b k), fun i j hij angle => ?_⟩
  have reg : ∀ k, (b k).z = 3 * k ∧ RegularQuad ⟨0, 0, 1⟩ (Quadrilateral.make (b k) (⟨1 / 5, 1 / 5, 0⟩ + b k)
      (⟨-2 / 5, 1 / 5, 0⟩ + b k) (⟨-1 / 5, 3 / 5, 0⟩ + b k)) := by
    intro k
    obtain ⟨q, e, hd, hr⟩ := sampled_quad stableSort_sorts (highDraws_quad k)
    obtain rfl := Outcome.val.inj ((hb k).symm.trans e)
    have hr := hr (high_ordinary (b k))
    have en : Spec.dipNormal (highDraws k).strikeAngle (highDraws k).dipAngle = ⟨0, 0, 1⟩ := by
      ext <;> simp [Spec.dipNormal, highDraws]
    rw [en] at hr
    refine ⟨?_, hr⟩
    obtain ⟨lo, hi, ⟨⟨⟨x, hx, h1⟩, _⟩, ⟨⟨y, hy, h2⟩, _⟩⟩, h3⟩ := hd.center V3.z (by simp)
    have hz : ∀ x ∈ [b k, ⟨1 / 5, 1 / 5, 0⟩ + b k, ⟨-1 / 5, 3 / 5, 0⟩ + b k, ⟨-2 / 5, 1 / 5, 0⟩ + b k], x.z = (b k).z := by
      intro x hx
      simp only [List.mem_cons, List.not_mem_nil, or_false] at hx
      rcases hx with rfl | rfl | rfl | rfl <;> simp
    have h1' := hz x hx
    have h2' := hz y hy
    have : (highDraws k).center.z = 3 * k := rfl
    rw [this] at h3
    linarith
  have hz : 3 ≤ |(b i).z - (b j).z| := by
    rw [(reg i).1, (reg j).1]
    have : (1 : ℝ) ≤ |(i : ℝ) - j| := by
      have : (1 : ℤ) ≤ |(i : ℤ) - j| := Int.one_le_abs (by omega)
      exact_mod_cast this
    rw [← mul_sub, abs_mul, abs_of_pos (by norm_num : (0 : ℝ) < 3)]
    linarith
  set q := Quadrilateral.make (b i) (⟨1 / 5, 1 / 5, 0⟩ + b i) (⟨-2 / 5, 1 / 5, 0⟩ + b i) (⟨-1 / 5, 3 / 5, 0⟩ + b i) with eq
  set r := Quadrilateral.make (b j) (⟨1 / 5, 1 / 5, 0⟩ + b j) (⟨-2 / 5, 1 / 5, 0⟩ + b j) (⟨-1 / 5, 3 / 5, 0⟩ + b j) with er
  have heps : quadEps q ≤ 1 := by
    have := quadEps_le (b i) (⟨1 / 5, 1 / 5, 0⟩ + b i) (⟨-2 / 5, 1 / 5, 0⟩ + b i) (⟨-1 / 5, 3 / 5, 0⟩ + b i) 1 zero_le_one (by
      intro e he
      simp only [Frackit.quadEdges, Quadrilateral.make, List.mem_cons, List.not_mem_nil, or_false] at he
      rcases he with rfl | rfl | rfl | rfl <;>
      · refine Real.sqrt_le_one.2 ?_
        norm_num [V3.sqLen])
    rw [one_mul] at this
    exact this.trans (by norm_num [confusion])
  have he := high_empty hz eq er (reg i).2 (reg j).2 (eps := min (quadEps q) (quadEps r))
    ((min_le_left _ _).trans heps) exactLibrary boundedKernel_neverFails
  refine ⟨.single .empty, ?_, .inl ⟨by simp [NoIntersection, parts], ?_⟩⟩
  · show (do let r ← intersect exactLibrary.isk (.geom (.quadrilateral q)) (.geom (.quadrilateral r))
              (min (quadEps q) (quadEps r))
             r.toResult) = _
    rw [he]
    rfl
  · intro d hd
    cases hd
    have ne : ∀ q : Quadrilateral, (pointsOf (.quadrilateral q)).Nonempty := fun q =>
      ⟨q.p0, [1, 0, 0, 0], rfl, by simp, by simp, by simp, by simp, by simp⟩
    obtain ⟨d, hd⟩ := C73_computed boundedKernel boundedKernel_neverFails (fun s t => bounded_extrema) boundedKernel_faithful
      (.quadrilateral q) (.quadrilateral r) (reg i).2.figure (reg j).2.figure (ne q) (ne r)
      (by simp) (by simp) (by simp) (by simp) (by simp [ClosedArc]) (by simp [ClosedArc])
    have hs := C73_distance boundedKernel boundedKernel_faithful (.geom (.quadrilateral q)) (.geom (.quadrilateral r))
      (reg i).2.figure (reg j).2.figure (by simp [PointSegment]) d hd
    refine ⟨d, hd, ?_⟩
    by_contra hlt
    push Not at hlt
    obtain ⟨x, hx, y, hy, h⟩ := hs.2 1 one_pos
    have zx : x.z = (b i).z := hull_height (by simp [eq, Quadrilateral.make]) hx
    have zy : y.z = (b j).z := hull_height (by simp [er, Quadrilateral.make]) hy
    have : |(b i).z - (b j).z| ≤ Spec.dist x y := by
      rw [← zx, ← zy, Spec.dist]
      exact Real.abs_le_sqrt (by nlinarith [sq_nonneg (x.x - y.x), sq_nonneg (x.y - y.y)])
    norm_num at hlt
    linarith

/-- **C126** The hypotheses are met: with the exact library and these draws example 1 ends, and the network contains
quadrilaterals which the statement is about. -/
theorem C126_witness : ∃ k s, Appl.example1 (libraryEngine exactLibrary) (fun s => s.count)
      (fun k => quadDraw stableSort (highDraws k)) (fun k => quadDraw stableSort (highDraws k)) 100 = .val (some (k, s)) ∧
    s.set1.length = 15 ∧ s.set2.length = 15 ∧
    ∀ x ∈ s.set1 ++ s.set2, ∃ i q, MadeOf stableSort (highDraws i) x q ∧ Ordinary 0 0 q := by
  obtain ⟨q, hq, ho, hc⟩ := high_compatible
  obtain ⟨s, hs, _⟩ := C61_terminates (eng := libraryEngine exactLibrary) (fun s => s.count) (fun _ => List.Perm.refl _)
    (fun k => .geom (.quadrilateral (q k))) 15 15 100 (fun i j h => hc i j h _) (fun i j h => hc i j h _) (by norm_num)
  have hd : (fun k => quadDraw stableSort (highDraws k)) = fun k => .val (.geom (.quadrilateral (q k))) := by
    funext k
    unfold quadDraw
    rw [hq k]
    rfl
  have h1 : Appl.example1 (libraryEngine exactLibrary) (fun s => s.count)
      (fun k => quadDraw stableSort (highDraws k)) (fun k => quadDraw stableSort (highDraws k)) 100 = .val (some (30, s)) := by
    rw [hd]
    exact hs
  have h := C126_example1 exactLibrary exactLibrary_sound _ (fun _ => List.Perm.refl _) stableSort stableSort_sorts
    highDraws highDraws highDraws_quad highDraws_quad 100 _ s h1
  refine ⟨_, s, h1, h.1, h.2.1, fun x hx => ?_⟩
  have : ∃ i < 30, ∃ r, MadeOf stableSort (highDraws i) x r ∧ DrawnQuad (highDraws i) r := by
    rcases List.mem_append.1 hx with hx | hx
    · exact h.2.2.1 x hx
    · exact h.2.2.2.1 x hx
  obtain ⟨i, _, r, hr, _⟩ := this
  obtain rfl := Outcome.val.inj ((hq i).symm.trans hr.1)
  exact ⟨i, _, hr, ho i⟩

end Props
