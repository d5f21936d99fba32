import Verif.Props.GeneratedMulti
import Verif.Props.GeneratedExample
import Verif.Props.GenerationMultiEnd

/-!
# C126: a network of example 3 with the exact library
-/

namespace Props
open Verif Frackit Lemmas
open Spec.Constraints (parts NoIntersection AtLeast AcceptBy NotLess)

theorem parallel_far {K : Kernel} {f1 f2 : FaceGeom} {L ce1 ce2 eps : ℝ}
    (hp : gpIsParallel f1.plane.normal f2.plane.normal angular) (hc : ¬ f1.plane.contains f2.plane.supp eps) :
    intersectPlanarPlanar K f1 f2 L ce1 ce2 eps = .val .empty := by
  classical
  unfold intersectPlanarPlanar intersectPlanePlane
  rw [if_pos hp, if_neg hc]
  rfl

/-- A horizontal disk or quadrilateral in the height `z`. -/
inductive Level (z : ℝ) : DistArg → Prop
  | disk (e : Elliptical) (h : ValidElliptical e) (hm : e.minLen ≤ e.majLen) (h1 : e.majLen ≤ 1)
      (hn : e.normal = ⟨0, 0, 1⟩) (hz : e.center.z = z) : Level z (.geom (.disk e))
  | quad (q : Quadrilateral) (h : RegularQuad ⟨0, 0, 1⟩ q) (hc : q.isConvex) (he : quadEps q ≤ 1)
      (hz : ∀ c ∈ [q.p0, q.p1, q.p3, q.p2], c.z = z) : Level z (.geom (.quadrilateral q))

theorem Level.valid {z : ℝ} {x : DistArg} (h : Level z x) : ∃ g, x = .geom g ∧ ValidGeom g ∧ (pointsOf g).Nonempty ∧
    (∀ t, g ≠ .triangle t) ∧ (∀ c, g ≠ .hollowCylinder c) ∧ ¬ ClosedArc g := by
  cases h with
  | disk e h hm h1 hn hz =>
    exact ⟨_, rfl, h, ⟨e.center, 0, 0, by simp, by ext <;> simp [Spec.localPoint]⟩, by simp, by simp, by simp [ClosedArc]⟩
  | quad q h hc he hz =>
    exact ⟨_, rfl, h.figure, ⟨q.p0, [1, 0, 0, 0], rfl, by simp, by simp, by simp, by simp, by simp⟩, by simp, by simp,
      by simp [ClosedArc]⟩

theorem Level.height {z : ℝ} {x : DistArg} (h : Level z x) : ∀ p ∈ argPoints x, p.z = z := by
  cases h with
  | disk e h hm h1 hn hz =>
    intro p hp
    have := region_inPlane h hp
    simp only [Spec.OnPlane] at this
    rw [show e.supportingPlane.normal = ⟨0, 0, 1⟩ from hn, show e.supportingPlane.supp = e.center from rfl] at this
    linarith
  | quad q h hc he hz => exact fun p hp => hull_height hz hp

theorem Level.eps {z : ℝ} {x : DistArg} (h : Level z x) (K : ShapeKernel) :
    defaultEpsilon K x = .val (fractureEps x) ∧ fractureEps x ≤ 1 := by
  cases h with
  | disk e h hm h1 hn hz => exact ⟨diskEps_default h, (diskEps_le hm).trans (by linarith)⟩
  | quad q h hc he hz => exact ⟨rfl, he⟩

theorem Level.empty {z z' : ℝ} {x y : DistArg} (hx : Level z x) (hy : Level z' y) (hz : 5 ≤ |z - z'|) {eps : ℝ} (he : eps ≤ 1)
    (L : LibraryKernel) (hN : NeverFails L.isk.shapes) :
    intersect L.isk x.toIs y.toIs eps = .val (.geoms (.single .empty)) := by
  have pre : ∀ {g1 g2 : AnyGeometry}, ValidGeom g1 → ValidGeom g2 → (∀ t, g1 ≠ .triangle t) → (∀ c, g1 ≠ .hollowCylinder c) →
      ¬ ClosedArc g1 → (∀ t, g2 ≠ .triangle t) → (∀ c, g2 ≠ .hollowCylinder c) → ¬ ClosedArc g2 →
      preChecked L.isk (.geom g1) (.geom g2) eps emptySingle (singleResult (.val .empty)) = .val (.geoms (.single .empty)) := by
    intro g1 g2 v1 v2 a1 a2 a3 b1 b2 b3
    obtain ⟨s, hs⟩ := (C72_supported L.isk.shapes g1).1 hN v1 a1 a2 a3
    obtain ⟨t, ht⟩ := (C72_supported L.isk.shapes g2).1 hN v2 b1 b2 b3
    unfold preChecked getBoundingBox
    simp only [hs, ht, Outcome.val_bind, Outcome.pure_eq]
    split_ifs <;> rfl
  have par : ∀ {n m : V3}, (n = ⟨0, 0, 1⟩ ∨ n = -⟨0, 0, 1⟩) → (m = ⟨0, 0, 1⟩ ∨ m = -⟨0, 0, 1⟩) → gpIsParallel n m angular := by
    intro n m h1 h2
    rcases h1 with h1 | h1 <;> rcases h2 with h2 | h2 <;>
      norm_num [gpIsParallel, gpAngle, h1, h2, V3.dot, V3.len, V3.sqLen, angular]
  have far : ∀ {pl : Plane} {p : V3} {z z' : ℝ}, (pl.normal = ⟨0, 0, 1⟩ ∨ pl.normal = -⟨0, 0, 1⟩) → pl.supp.z = z → p.z = z' →
      5 ≤ |z - z'| → ¬ pl.contains p eps := by
    intro pl p z z' hn h1 h2 hz hc
    have hc : |(p - pl.supp).dot pl.normal| < eps := hc
    have : |(p - pl.supp).dot pl.normal| = |z - z'| := by
      rcases hn with h | h <;> simp [V3.dot, h, h1, h2, abs_sub_comm]
    linarith
  have face : ∀ {q : Quadrilateral} {z : ℝ}, RegularQuad ⟨0, 0, 1⟩ q → (∀ c ∈ [q.p0, q.p1, q.p3, q.p2], c.z = z) →
      ∀ ops, ∃ f, quadFace q ops = .val f ∧ (f.plane.normal = ⟨0, 0, 1⟩ ∨ f.plane.normal = -⟨0, 0, 1⟩) ∧ f.plane.supp.z = z := by
    intro q z hq hz ops
    obtain ⟨f, hf⟩ := hq.face ops
    obtain ⟨pl, hp, c, n⟩ := hq.exists_plane
    obtain rfl : pl = f.plane := Outcome.val.inj (hp.symm.trans (quadFace_parts hf).1)
    refine ⟨f, hf, n, ?_⟩
    have := c q.p0 (by simp)
    have hz := hz q.p0 (by simp)
    rcases n with h | h <;> simp [Spec.OnPlane, h] at this <;> linarith
  have qd : ∀ {q : Quadrilateral} {d : Elliptical} {z z' : ℝ}, 5 ≤ |z - z'| → RegularQuad ⟨0, 0, 1⟩ q →
      (∀ c ∈ [q.p0, q.p1, q.p3, q.p2], c.z = z) → ValidElliptical d → d.normal = ⟨0, 0, 1⟩ → d.center.z = z' →
      intersect L.isk (.geom (.quadrilateral q)) (.geom (.disk d)) eps = .val (.geoms (.single .empty)) := by
    intro q d z z' hz hq zq hd hn zd
    show preChecked L.isk (.geom (.quadrilateral q)) (.geom (.disk d)) eps emptySingle
      (singleResult (intersectQuadDisk _ _ _ _ _ _)) = _
    obtain ⟨f, hf, n, zf⟩ := face hq zq (L.isk.ops (.quadrilateral q))
    unfold intersectQuadDisk
    rw [hf, Outcome.val_bind]
    have ha := par n (.inl hn : d.normal = _ ∨ _)
    have hb := far n zf zd hz
    rw [parallel_far (f1 := f) (f2 := diskFace d (L.isk.ops (.disk d))) ha hb]
    exact pre hq.figure hd (by simp) (by simp) (by simp [ClosedArc]) (by simp) (by simp) (by simp [ClosedArc])
  cases hx with
  | disk d hd md d1 nd zd =>
    cases hy with
    | disk e he me e1 ne ze =>
      show preChecked L.isk (.geom (.disk d)) (.geom (.disk e)) eps emptySingle
        (singleResult (intersectDiskDisk _ _ _ _ _ _)) = _
      unfold intersectDiskDisk
      have ha := par (.inl nd : d.normal = _ ∨ _) (.inl ne : e.normal = _ ∨ _)
      have hb : ¬ d.supportingPlane.contains e.center eps := far (.inl nd) zd ze hz
      rw [parallel_far (f1 := diskFace d (L.isk.ops (.disk d))) (f2 := diskFace e (L.isk.ops (.disk e))) ha hb]
      exact pre hd he (by simp) (by simp) (by simp [ClosedArc]) (by simp) (by simp) (by simp [ClosedArc])
    | quad q hq cq eq zq =>
      rw [C77_order _ _ _ _ (by simp [typeOf, DistArg.toIs])]
      exact qd (by rwa [abs_sub_comm]) hq zq hd nd zd
  | quad q hq cq eq zq =>
    cases hy with
    | disk d hd md d1 nd zd => exact qd hz hq zq hd nd zd
    | quad r hr cr er zr =>
      show preChecked L.isk (.geom (.quadrilateral q)) (.geom (.quadrilateral r)) eps emptySingle
        (singleResult (intersectQuadQuad _ _ _ _ _ _)) = _
      obtain ⟨f, hf, n, zf⟩ := face hq zq (L.isk.ops (.quadrilateral q))
      obtain ⟨g, hg, m, zg⟩ := face hr zr (L.isk.ops (.quadrilateral r))
      unfold intersectQuadQuad
      rw [if_neg (by simp [cq, cr]), hf, hg]
      simp only [Outcome.val_bind]
      rw [parallel_far (f1 := f) (f2 := g) (par n m) (far n zf zg hz)]
      exact pre hq.figure hr.figure (by simp) (by simp) (by simp [ClosedArc]) (by simp) (by simp) (by simp [ClosedArc])

/-- Entities in different heights are compatible. -/
theorem Level.compatible {z z' : ℝ} {x y : DistArg} (hx : Level z x) (hy : Level z' y) (hz : 5 ≤ |z - z'|)
    {d an mg bd : ℝ} (hd : d ≤ 5) : Spec.Network.Compatible (libraryEngine exactLibrary) d an mg bd x y := by
  obtain ⟨e1, l1⟩ := hx.eps exactLibrary.isk.shapes
  obtain ⟨e2, l2⟩ := hy.eps exactLibrary.isk.shapes
  have he := hx.empty hy hz (eps := min (fractureEps x) (fractureEps y)) ((min_le_left _ _).trans l1) exactLibrary
    boundedKernel_neverFails
  obtain ⟨g, rfl, v1, n1, a1, a2, a3⟩ := hx.valid
  obtain ⟨h, rfl, v2, n2, b1, b2, b3⟩ := hy.valid
  refine ⟨.single .empty, ?_, .inl ⟨by simp [NoIntersection, parts], ?_⟩⟩
  · show (do let r ← intersectDefault exactLibrary.isk (.geom g) (.geom h); r.toResult) = _
    unfold intersectDefault
    rw [show isArgEpsilon exactLibrary.isk (.geom g) = _ from e1, show isArgEpsilon exactLibrary.isk (.geom h) = _ from e2]
    simp only [Outcome.val_bind]
    rw [show intersect exactLibrary.isk (.geom g) (.geom h) _ = _ from he]
    rfl
  · intro d' hd'
    cases hd'
    obtain ⟨r, hr⟩ := C73_computed boundedKernel boundedKernel_neverFails (fun s t => bounded_extrema) boundedKernel_faithful
      g h v1 v2 n1 n2 a1 a2 b1 b2 a3 b3
    have hps : ¬ PointSegment (.geom g) (.geom h) := by
      intro hps
      cases hx <;> cases hy <;> simp [PointSegment] at hps
    have hs := C73_distance boundedKernel boundedKernel_faithful (.geom g) (.geom h) v1 v2 hps r hr
    refine ⟨r, hr, ?_⟩
    by_contra hlt
    push Not at hlt
    obtain ⟨p, hp, q, hq, hpq⟩ := hs.2 (d - r) (by linarith)
    have zx := hx.height p hp
    have zy := hy.height q hq
    have : |z - z'| ≤ Spec.dist p q := by
      rw [← zx, ← zy, Spec.dist]
      exact Real.abs_le_sqrt (by nlinarith [sq_nonneg (p.x - q.x), sq_nonneg (p.y - q.y)])
    linarith

/-! ### Draws -/

/-- Draws of horizontal disks with axes `major` and `minor`, above each other. -/
noncomputable def highDisks (k : ℕ) : DiskDraws where
  center := fun _ => ⟨0, 0, 12 * k + 6⟩
  major := fun i => if i = 0 then -1 else 1
  minor := fun _ => 1 / 2
  angleX := fun _ => 0
  angleY := fun _ => 0
  angleZ := fun _ => 0

theorem high_disk (k : ℕ) : ∃ e d', diskSample 3 (highDisks k) = some (.val e, d') ∧ Level (12 * k + 6) (.geom (.disk e)) := by
  have h1 : redraw (fun a : ℝ => a ≤ 0) 3 (highDisks k).major ≠ none := by
    obtain ⟨p, hp⟩ := redraw_terminates (fun a : ℝ => a ≤ 0) (highDisks k).major 1 (by simp [highDisks]) 3 (by norm_num)
    rw [hp]; simp
  have h2 : redraw (fun a : ℝ => a ≤ 0) 3 (highDisks k).minor ≠ none := by
    obtain ⟨p, hp⟩ := redraw_terminates (fun a : ℝ => a ≤ 0) (highDisks k).minor 0 (by simp [highDisks]) 3 (by norm_num)
    rw [hp]; simp
  obtain ⟨r, d', hr⟩ : ∃ r d', diskSample 3 (highDisks k) = some (r, d') := by
    unfold diskSample
    cases e1 : redraw (fun a : ℝ => a ≤ 0) 3 (highDisks k).major with
    | none => exact absurd e1 h1
    | some p =>
      cases e2 : redraw (fun a : ℝ => a ≤ 0) 3 (highDisks k).minor with
      | none => exact absurd e2 h2
      | some q => exact ⟨_, _, rfl⟩
  obtain ⟨i, j, e, hi, _, rfl, hc, ha, hb, p1, p2, _, _, hn, hf, _⟩ := C26_valid 3 _ _ _ hr
  have hle : (highDisks k).major i ≤ 1 := by
    show (if i = 0 then (-1 : ℝ) else 1) ≤ 1
    split_ifs <;> norm_num
  refine ⟨e, d', hr, .disk e ⟨hf, by rw [ha]; exact hi.1, p1⟩ p2 (by rw [ha]; exact hle) ?_ (by rw [hc]; rfl)⟩
  rw [hn]
  ext <;> simp [Spec.rotX, Spec.rotY, Spec.rotZ, highDisks]

theorem high_level (k : ℕ) : ∃ q, sampleQuadrilateral stableSort (highDraws k) = .val q ∧ Ordinary 0 0 q ∧
    Level (3 * k) (.geom (.quadrilateral q)) := by
  obtain ⟨b, hb⟩ := high_quad k
  refine ⟨_, hb, high_ordinary b, ?_⟩
  obtain ⟨q, e, hd, hr⟩ := sampled_quad stableSort_sorts (highDraws_quad k)
  obtain rfl := Outcome.val.inj (hb.symm.trans e)
  have hr := hr (high_ordinary b)
  have en : Spec.dipNormal (highDraws k).strikeAngle (highDraws k).dipAngle = ⟨0, 0, 1⟩ := by
    ext <;> simp [Spec.dipNormal, highDraws]
  rw [en] at hr
  have hz : ∀ x ∈ [b, ⟨1 / 5, 1 / 5, 0⟩ + b, ⟨-1 / 5, 3 / 5, 0⟩ + b, ⟨-2 / 5, 1 / 5, 0⟩ + b], x.z = b.z := by
    intro x hx
    simp only [List.mem_cons, List.not_mem_nil, or_false] at hx
    rcases hx with rfl | rfl | rfl | rfl <;> simp
  have hbz : b.z = 3 * k := by
    obtain ⟨lo, hi, ⟨⟨⟨x, hx, h1⟩, _⟩, ⟨⟨y, hy, h2⟩, _⟩⟩, h3⟩ := hd.center V3.z (by simp)
    have h1' := hz x hx
    have h2' := hz y hy
    have : (highDraws k).center.z = 3 * k := rfl
    rw [this] at h3
    linarith
  refine .quad _ hr (by norm_num [Quadrilateral.make, quadConvexity, V3.dot, V3.cross]) ?_ (by rw [← hbz]; exact hz)
  have := quadEps_le b (⟨1 / 5, 1 / 5, 0⟩ + b) (⟨-2 / 5, 1 / 5, 0⟩ + b) (⟨-1 / 5, 3 / 5, 0⟩ + b) 1 zero_le_one (by
    intro e he
    simp only [Frackit.quadEdges, Quadrilateral.make, List.mem_cons, List.not_mem_nil, or_false] at he
    rcases he with rfl | rfl | rfl | rfl <;>
    · refine Real.sqrt_le_one.2 ?_
      norm_num [V3.sqLen])
  rw [one_mul] at this
  exact this.trans (by norm_num [confusion])

/-- The draws of the example: disks and quadrilaterals in turn, each one above the ones before. -/
noncomputable def highFractures (k : Appl.Kind) (w : ℕ) : Outcome DistArg × ℕ :=
  match k with
  | .disk => ((match diskSample 3 (highDisks w) with
      | some (r, _) => r >>= fun e => .val (.geom (.disk e))
      | none => .ub), w + 1)
  | .quad => (quadDraw stableSort (highDraws (4 * w)), w + 1)

theorem highFractures_draws : FractureDraws stableSort 90 highFractures := by
  constructor
  · intro w x hx
    obtain ⟨e, d', he, _⟩ := high_disk w
    refine ⟨3, highDisks w, e, d', he, fun k => ?_, ?_⟩
    · show (if k = 0 then (-1 : ℝ) else 1) ≤ 90
      split_ifs <;> norm_num
    · simp only [highFractures, he, Outcome.val_bind] at hx
      exact (Outcome.val.inj hx).symm
  · intro w x hx
    obtain ⟨Ls, Ld, h, h1, h2⟩ := highDraws_quad (4 * w)
    exact ⟨highDraws (4 * w), ⟨Ls, Ld, h, h1.trans (by norm_num), h2.trans (by norm_num)⟩, hx⟩

/-- **C126** The hypotheses are met: with the exact library and these draws example 3 ends, all its disks are fractures
and all its quadrilaterals are ordinary ones. -/
theorem C126_witness3 : ∃ k s, Appl.example3 (libraryEngine exactLibrary) ⟨[], fun _ => .val 400⟩ (fun s => s.count)
      highFractures 0 100 = .val (some (k, s)) ∧ FractureDraws stableSort 90 highFractures ∧
    ∀ x ∈ s.sets.exportAll Appl.kinds, ∃ n, Fracture 90 x n := by
  choose e d' he hl using high_disk
  choose q hq ho hlq using fun k => high_level (4 * k)
  let x : Appl.Kind → ℕ → DistArg := fun k w => match k with | .disk => .geom (.disk (e w)) | .quad => .geom (.quadrilateral (q w))
  have hdraw : highFractures = fun k w => (.val (x k w), w + 1) := by
    funext k w
    cases k with
    | disk => simp only [highFractures, he, Outcome.val_bind, x]
    | quad =>
      simp only [highFractures, x]
      unfold quadDraw
      rw [hq w]
      rfl
  have dist : ∀ i j : ℕ, i < j → (i : ℝ) + 1 ≤ j := fun i j h => by exact_mod_cast h
  have lq : ∀ w : ℕ, Level (12 * w) (x .quad w) := fun w => by
    have := hlq w
    push_cast at this
    rwa [← mul_assoc, show (3 : ℝ) * 4 = 12 by norm_num] at this
  have ld : ∀ w : ℕ, Level (12 * w + 6) (x .disk w) := hl
  have hx : Candidates (libraryEngine exactLibrary) ⟨[], fun _ => .val 400⟩ x := by
    refine ⟨fun k i => ⟨400, rfl, by norm_num⟩, (fun k i f hf => by cases hf), fun i j h => ?_, fun i j h => ?_,
      fun k l i j hk h => ?_⟩
    · exact (ld i).compatible (ld j) (by rw [le_abs]; right; have := dist i j h; linarith) (by norm_num)
    · exact (lq i).compatible (lq j) (by rw [le_abs]; right; have := dist i j h; linarith) (by norm_num)
    · cases k <;> cases l
      · exact absurd rfl hk
      · exact (ld i).compatible (lq j) (by rw [le_abs]; right; have := dist i j h; linarith) (by norm_num)
      · exact (lq i).compatible (ld j) (by rw [le_abs]; right; have := dist i j h; linarith) (by norm_num)
      · exact absurd rfl hk
  obtain ⟨s, hs, _⟩ := C62_terminates (eng := libraryEngine exactLibrary) ⟨[], fun _ => .val 400⟩ (fun s => s.count)
    (fun _ => .refl _) x hx 0 12 16 100 (by norm_num)
  rw [← hdraw] at hs
  refine ⟨_, s, hs, highFractures_draws, fun y hy => ?_⟩
  obtain ⟨D, Q, _, _, _, hE, _, _, _, _, _, m1, m2, _⟩ := C62_network _ _ (fun _ => .refl _) _ 0 12 16 100 _ s hs
  rw [hE] at hy
  rcases List.mem_append.1 hy with hy | hy
  · obtain ⟨⟨w, hw⟩, _⟩ := m1 y hy
    obtain ⟨e, _, hf⟩ := drawn_disk highFractures_draws hw
    exact ⟨_, hf⟩
  · obtain ⟨⟨w, hw⟩, _⟩ := m2 y hy
    rw [hdraw] at hw
    obtain rfl := Outcome.val.inj hw
    obtain ⟨Ls, Ld, h, h1, h2⟩ := highDraws_quad (4 * w)
    exact ⟨_, quad_fracture stableSort_sorts le_rfl (d := highDraws (4 * w))
      ⟨Ls, Ld, h, h1.trans (by norm_num), h2.trans (by norm_num)⟩ (hq w) (ho w)⟩

end Props
