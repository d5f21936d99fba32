import Verif.Props.AcceptedFaceExamples

/-!
# C135 Angles between accepted curved faces
-/

namespace Props
open Verif Frackit
open Spec.Constraints (config Config parts NoIntersection AtLeast PointOk AcceptBy NotLess)
open Frackit.Constraints (Op run evaluate)

/-! ## C135 The angle between accepted faces is large enough wherever they meet -/

/-- A face of limited extent: the part of a smooth surface for the parameters in `D`. -/
structure SmoothFace (L : LibraryKernel) (s : Shape) (D : Set (ℝ × ℝ)) (S normal : ℝ → ℝ → V3) : Prop where
  kind : s.kind = .face
  bounded : InSomeBox s.points
  surface : ExactSurface (L.surface s) D S normal
  points : ∀ p, p ∈ s.points ↔ ∃ u v, (u, v) ∈ D ∧ S u v = p

/-- The angle between the faces is at least `t` in the point `p`. -/
def AngleIn (D1 : Set (ℝ × ℝ)) (S1 n1 : ℝ → ℝ → V3) (D2 : Set (ℝ × ℝ)) (S2 n2 : ℝ → ℝ → V3) (t : ℝ) (p : V3) : Prop :=
  ∀ u1 v1 u2 v2, (u1, v1) ∈ D1 → (u2, v2) ∈ D2 → S1 u1 v1 = p → S2 u2 v2 = p →
    ∀ θ, Spec.IsPlaneAngle (n1 u1 v1) (n2 u2 v2) θ → t ≤ θ

/-- The full claim: with a library, the operations of which are exact, the angle between two faces that are accepted is at
least the minimum angle in every common point. -/
def C135_full : Prop :=
  ∀ (L : LibraryKernel), Faithful L.isk.shapes → BoundsContain L.isk.shapes → ∀ (ops : List Op) (f g : Shape)
    (D1 : Set (ℝ × ℝ)) (S1 n1 : ℝ → ℝ → V3) (D2 : Set (ℝ × ℝ)) (S2 n2 : ℝ → ℝ → V3) (eps t : ℝ),
    SmoothFace L f D1 S1 n1 → SmoothFace L g D2 S2 n2 → ExactFaceOps L f g eps → 0 < eps →
    UsedEps L (config ops.reverse) (.shape f) (.shape g) eps → (config ops.reverse).minAngle = some t →
    evaluate (libraryEngine L) (run ops) (.shape f) (.shape g) = .val true →
    ∀ p, p ∈ f.points → p ∈ g.points → AngleIn D1 S1 n1 D2 S2 n2 t p

section
variable {L : LibraryKernel} {f g : Shape} {D1 D2 : Set (ℝ × ℝ)} {S1 n1 S2 n2 : ℝ → ℝ → V3}

theorem smooth_angle_at (hf : SmoothFace L f D1 S1 n1) (hg : SmoothFace L g D2 S2 n2) {p : V3} (hp : p ∈ f.points)
    (hq : p ∈ g.points) : ∃ θ, intersectionAngle L.curves (.face (L.surface f)) (.face (L.surface g)) (.single (.point p)) = .val θ ∧
      θ ≤ Real.pi / 2 ∧ ∀ t, t ≤ θ → AngleIn D1 S1 n1 D2 S2 n2 t p := by
  obtain ⟨u1, v1, d1, e1⟩ := (hf.points p).1 hp
  obtain ⟨u2, v2, d2, e2⟩ := (hg.points p).1 hq
  obtain ⟨θ, h1, h2⟩ := C58_two_faces_partial L.curves _ _ _ _ _ _ _ _ u1 v1 u2 v2 hf.surface hg.surface d1 d2 (e1.trans e2.symm)
  rw [e1] at h1
  refine ⟨θ, h1, ?_, fun t ht a b c d hab hcd ha hc φ hφ => ?_⟩
  · rw [h2]
    rcases le_total (Spec.vecAngle (n1 u1 v1) (n2 u2 v2)) (Real.pi / 2) with h | h
    · exact (min_le_left _ _).trans h
    · exact (min_le_right _ _).trans (by linarith)
  · obtain ⟨θ', h1', h2'⟩ := C58_two_faces_partial L.curves _ _ _ _ _ _ _ _ a b c d hf.surface hg.surface hab hcd
      (ha.trans hc.symm)
    rw [ha] at h1'
    rw [planeAngle_unique hφ h2', Outcome.val.inj (h1'.symm.trans h1)]
    exact ht

/-- Accepted faces: the angle is at least the minimum angle in all touching points that are reported, and in five
points of each edge that is reported: the ends, the middle, and half way between (missing: the other points of the
edges, see `C135_disproof`). -/
theorem C135_samples_partial (L : LibraryKernel) (hK : Faithful L.isk.shapes) (hB : BoundsContain L.isk.shapes)
    (ops : List Op) (f g : Shape) (D1 : Set (ℝ × ℝ)) (S1 n1 : ℝ → ℝ → V3) (D2 : Set (ℝ × ℝ)) (S2 n2 : ℝ → ℝ → V3) (eps t : ℝ)
    (hf : SmoothFace L f D1 S1 n1) (hg : SmoothFace L g D2 S2 n2) (hx : ExactFaceOps L f g eps) (he : 0 < eps)
    (hcur : ∀ e, (L.curves e).first ≤ (L.curves e).last)
    (hu : UsedEps L (config ops.reverse) (.shape f) (.shape g) eps) (ht : (config ops.reverse).minAngle = some t)
    (hacc : evaluate (libraryEngine L) (run ops) (.shape f) (.shape g) = .val true) :
    ∃ l, intersect L.isk (.shape f) (.shape g) eps = .val (.geoms (.list l)) ∧
      (∀ p, .point p ∈ l → AngleIn D1 S1 n1 D2 S2 n2 t p) ∧
      (∀ e a b, .edge e a b ∈ l → ∀ k : ℕ, k ≤ 4 → AngleIn D1 S1 n1 D2 S2 n2 t
        ((L.curves e).value ((L.curves e).first + k / 4 * ((L.curves e).last - (L.curves e).first)))) ∧
      ∀ k, .face k ∈ l → t ≤ 0 := by
  classical
  have hact : ¬ (config ops.reverse).Inactive := by
    rintro ⟨_, h, _⟩
    rw [ht] at h
    cases h
  obtain ⟨r, hr, hacc⟩ := (C35_accepts_exact (libraryEngine L) ops _ _ hact).1 hacc
  have hi : intersect L.isk (.shape f) (.shape g) eps = .val (.geoms r) := used_intersect hu hr
  have empty : r = .list [.empty] → ∃ l, intersect L.isk (.shape f) (.shape g) eps = .val (.geoms (.list l)) ∧
      (∀ p, .point p ∈ l → AngleIn D1 S1 n1 D2 S2 n2 t p) ∧
      (∀ e a b, .edge e a b ∈ l → ∀ k : ℕ, k ≤ 4 → AngleIn D1 S1 n1 D2 S2 n2 t
        ((L.curves e).value ((L.curves e).first + k / 4 * ((L.curves e).last - (L.curves e).first)))) ∧
      ∀ k, .face k ∈ l → t ≤ 0 := by
    intro h
    refine ⟨[.empty], by rw [hi, h], ?_, ?_, ?_⟩
    · intro p hp; simp at hp
    · intro e a b hp; simp at hp
    · intro k hp; simp at hp
  rcases C77_faces L.isk hK hB f g hf.kind hg.kind hf.bounded hg.bounded eps he with h | ⟨_, h⟩
  · rw [hi] at h
    have hr' : r = .list (intersectFaceFace (L.isk.faceOps f g eps) L.isk.ends eps) := by simpa using h
    rcases faceFace_list (L.isk.faceOps f g eps) L.isk.ends eps with ⟨h0, _⟩ | ⟨hn, hmem⟩
    · exact empty (by rw [hr', h0])
    have hni : ¬ NoIntersection r := by
      intro h0
      obtain ⟨x, hx⟩ := List.exists_mem_of_ne_nil _ hn
      have := h0 x (by rw [hr']; exact hx)
      subst this
      have := (hmem .empty).1 hx
      simp at this
    rcases hacc with ⟨h0, _⟩ | ⟨_, _, _, hang, _⟩
    · exact absurd h0 hni
    -- the angle of each part
    have hall : ∀ x ∈ intersectFaceFace (L.isk.faceOps f g eps) L.isk.ends eps, ∃ θ,
        intersectionAngle L.curves (.face (L.surface f)) (.face (L.surface g)) (.single x) = .val θ ∧ θ ≤ Real.pi / 2 ∧
        (t ≤ θ → (∀ p, x = .point p → AngleIn D1 S1 n1 D2 S2 n2 t p) ∧
          (∀ e a b, x = .edge e a b → ∀ k : ℕ, k ≤ 4 → AngleIn D1 S1 n1 D2 S2 n2 t
            ((L.curves e).value ((L.curves e).first + k / 4 * ((L.curves e).last - (L.curves e).first)))) ∧
          ∀ k, x = .face k → t ≤ 0) := by
      intro x hx'
      rcases (hmem x).1 hx' with ⟨p, hp, rfl⟩ | ⟨e, hei, rfl⟩ | ⟨k, _, rfl⟩
      · have hpc := hx.points p (candidate_mem.1 ((pointIntersections_spec _ eps).2 p hp).1)
        obtain ⟨θ, h1, h2, h3⟩ := smooth_angle_at hf hg hpc.1 hpc.2
        refine ⟨θ, h1, h2, fun hle => ⟨?_, ?_, ?_⟩⟩
        · intro q hq
          cases hq
          exact h3 t hle
        · intro e a b h; cases h
        · intro k h; cases h
      · have he' := (((edgeIntersections_spec _).2 e).1 hei).1
        have hpt : ∀ s, (L.curves e).first ≤ s → s ≤ (L.curves e).last → ∃ θ, intersectionAngle L.curves
            (.face (L.surface f)) (.face (L.surface g)) (.single (.point ((L.curves e).value s))) = .val θ ∧
            θ ≤ Real.pi / 2 ∧ ∀ t, t ≤ θ → AngleIn D1 S1 n1 D2 S2 n2 t ((L.curves e).value s) := by
          intro s h1 h2
          have := hx.edges e he' _ ⟨s, h1, h2, rfl⟩
          exact smooth_angle_at hf hg this.1 this.2
        obtain ⟨φ, hφ⟩ : ∃ φ : ℝ → ℝ, ∀ s, (L.curves e).first ≤ s → s ≤ (L.curves e).last → intersectionAngle L.curves
            (.face (L.surface f)) (.face (L.surface g)) (.single (.point ((L.curves e).value s))) = .val (φ s) ∧
            φ s ≤ Real.pi / 2 ∧ ∀ t, t ≤ φ s → AngleIn D1 S1 n1 D2 S2 n2 t ((L.curves e).value s) := by
          refine ⟨fun s => if h : (L.curves e).first ≤ s ∧ s ≤ (L.curves e).last then (hpt s h.1 h.2).choose else 0,
            fun s h1 h2 => ?_⟩
          simp only [dif_pos (And.intro h1 h2)]
          exact (hpt s h1 h2).choose_spec
        obtain ⟨θ, h1, ⟨s, hs1, hs2, h2⟩, k0, k4, k2, k1, k3⟩ := C53_edge_samples L.curves (.face (L.surface f))
          (.face (L.surface g)) e (L.isk.ends e).1 (L.isk.ends e).2 φ (.inl ⟨_, _, rfl, rfl⟩) (hcur e)
          (fun s h1 h2 => (hφ s h1 h2).1)
        refine ⟨θ, h1, h2 ▸ (hφ s hs1 hs2).2.1, fun hle => ⟨?_, ?_, ?_⟩⟩
        · intro q h; cases h
        · intro e' a b h k hk
          cases h
          have hc := hcur e
          interval_cases k
          · refine (hφ _ (by push_cast; linarith) (by push_cast; linarith)).2.2 t
              (hle.trans (k0.trans (le_of_eq (congrArg φ (by push_cast; ring)))))
          · refine (hφ _ (by push_cast; linarith) (by push_cast; linarith)).2.2 t
              (hle.trans (k1.trans (le_of_eq (congrArg φ (by push_cast; ring)))))
          · refine (hφ _ (by push_cast; linarith) (by push_cast; linarith)).2.2 t
              (hle.trans (k2.trans (le_of_eq (congrArg φ (by push_cast; ring)))))
          · refine (hφ _ (by push_cast; linarith) (by push_cast; linarith)).2.2 t
              (hle.trans (k3.trans (le_of_eq (congrArg φ (by push_cast; ring)))))
          · refine (hφ _ (by push_cast; linarith) (by push_cast; linarith)).2.2 t
              (hle.trans (k4.trans (le_of_eq (congrArg φ (by push_cast; ring)))))
        · intro k h; cases h
      · refine ⟨0, rfl, by positivity, fun hle => ⟨?_, ?_, fun _ _ => hle⟩⟩
        · intro q h; cases h
        · intro e a b h; cases h
    let ψ : IsGeom → ℝ := fun x => if h : x ∈ intersectFaceFace (L.isk.faceOps f g eps) L.isk.ends eps then (hall x h).choose else 0
    have hψ : ∀ x (h : x ∈ intersectFaceFace (L.isk.faceOps f g eps) L.isk.ends eps), ψ x = (hall x h).choose :=
      fun x h => dif_pos h
    obtain ⟨v, hv, hmin, _⟩ := C53_list_minimum L.curves (.face (L.surface f)) (.face (L.surface g)) _ ψ hn
      (fun x h => by
        rw [hψ x h]
        exact ⟨(hall x h).choose_spec.1, (hall x h).choose_spec.2.1⟩)
    have htv : t ≤ v := by
      have h0 := hang t ht
      rw [hr', show (libraryEngine L).angle (.shape f) (.shape g)
        (.list (intersectFaceFace (L.isk.faceOps f g eps) L.isk.ends eps)) = .val v from hv] at h0
      rcases h0 with h0 | ⟨v', hv', htv⟩
      · cases h0
      · rw [Outcome.val.inj hv']
        exact htv
    have fin : ∀ x (h : x ∈ intersectFaceFace (L.isk.faceOps f g eps) L.isk.ends eps), t ≤ (hall x h).choose := by
      intro x h
      rw [← hψ x h]
      exact htv.trans (hmin x h)
    refine ⟨_, by rw [hi, hr'], fun p hp => ?_, fun e a b hp => ?_, fun k hp => ?_⟩
    · exact ((hall _ hp).choose_spec.2.2 (fin _ hp)).1 p rfl
    · exact ((hall _ hp).choose_spec.2.2 (fin _ hp)).2.1 e a b rfl
    · exact ((hall _ hp).choose_spec.2.2 (fin _ hp)).2.2 k rfl
  · rw [hi] at h
    exact empty (by simpa using h)

end

/-! ### A face that is twisted between the sampled points -/

/-- The slope of the twisted face: one in the five sampled points, less in between. -/
noncomputable def slope (x : ℝ) : ℝ := 1 - (x * (x - 1 / 4) * (x - 1 / 2) * (x - 3 / 4) * (x - 1)) ^ 2 / 2

theorem slope_diff : Differentiable ℝ slope := by
  unfold slope
  fun_prop

theorem slope_pos {x : ℝ} (h0 : 0 ≤ x) (h1 : x ≤ 1) : 0 < slope x := by
  have hx : ∀ c : ℝ, 0 ≤ c → c ≤ 1 → |x - c| ≤ 1 := fun c h2 h3 => abs_le.2 ⟨by linarith, by linarith⟩
  have h : |x * (x - 1 / 4) * (x - 1 / 2) * (x - 3 / 4) * (x - 1)| ≤ 1 := by
    rw [abs_mul, abs_mul, abs_mul, abs_mul]
    have a := hx 0 le_rfl zero_le_one
    rw [sub_zero] at a
    exact mul_le_one₀ (mul_le_one₀ (mul_le_one₀ (mul_le_one₀ a (abs_nonneg _) (hx _ (by norm_num) (by norm_num)))
      (abs_nonneg _) (hx _ (by norm_num) (by norm_num))) (abs_nonneg _) (hx _ (by norm_num) (by norm_num))) (abs_nonneg _)
      (hx _ (by norm_num) (by norm_num))
  have := sq_le_one_iff_abs_le_one _ |>.2 h
  unfold slope
  linarith

def strip : Set (ℝ × ℝ) := {p | (0 ≤ p.1 ∧ p.1 ≤ 1) ∧ (-1 ≤ p.2 ∧ p.2 ≤ 1)}

/-- A horizontal face. -/
def flatStrip : Shape := ⟨.face, {p | (0 ≤ p.x ∧ p.x ≤ 1) ∧ (-1 ≤ p.y ∧ p.y ≤ 1) ∧ p.z = 0}, ∅⟩

/-- A twisted face. -/
def twisted : Shape := ⟨.face, {p | (0 ≤ p.x ∧ p.x ≤ 1) ∧ (-1 ≤ p.y ∧ p.y ≤ 1) ∧ p.z = p.y * slope p.x}, ∅⟩

open Classical in
/-- Their surfaces. -/
noncomputable def twistSurface (s : Shape) : SurfaceGeom :=
  ⟨fun p => (p.x, p.y), fun _ => 0, fun u v => if (⟨0, 1, 0⟩ : V3) ∈ s.points then (⟨1, 0, 0⟩, ⟨0, 1, 0⟩) else
    (⟨1, 0, v * deriv slope u⟩, ⟨0, 1, slope u⟩)⟩

/-- The faces meet in a segment of the x axis. -/
def twistEnds (_ : ℕ) : V3 × V3 := (⟨0, 0, 0⟩, ⟨1, 0, 0⟩)

noncomputable def twistCurves (_ : ℕ) : CurveGeom := ⟨0, 1, fun t => ⟨t, 0, 0⟩⟩

noncomputable def twistLibrary : LibraryKernel :=
  faceLibrary (edgeOps [0] (fun e => [(twistEnds e).1, (twistEnds e).2])) twistEnds twistCurves twistSurface (fun _ => 1)

theorem flatStrip_smooth : SmoothFace twistLibrary flatStrip strip (fun u v => ⟨u, v, 0⟩) (fun _ _ => ⟨0, 0, 1⟩) where
  kind := rfl
  bounded := ⟨⟨0, -1, 0⟩, ⟨1, 1, 0⟩, fun p ⟨h1, h2, h3⟩ => ⟨h1.1, h1.2, h2.1, h2.2, h3.ge, h3.le⟩⟩
  surface := by
    have hm : (⟨0, 1, 0⟩ : V3) ∈ flatStrip.points := by
      refine ⟨⟨?_, ?_⟩, ⟨?_, ?_⟩, ?_⟩ <;> norm_num
    have hd : ∀ u v, ((twistSurface flatStrip).d1 u v) = (⟨1, 0, 0⟩, ⟨0, 1, 0⟩) := fun u v => if_pos hm
    refine ⟨fun u v _ => rfl, fun u v _ => rfl, fun u v => ?_, fun u v => ?_, fun u v => ?_, fun u v h => ?_⟩
    · show HasDerivAt _ ((twistSurface flatStrip).d1 u v).1.x u ∧ HasDerivAt _ ((twistSurface flatStrip).d1 u v).1.y u ∧
        HasDerivAt _ ((twistSurface flatStrip).d1 u v).1.z u
      rw [hd]
      exact ⟨hasDerivAt_id u, hasDerivAt_const u v, hasDerivAt_const u 0⟩
    · show HasDerivAt _ ((twistSurface flatStrip).d1 u v).2.x v ∧ HasDerivAt _ ((twistSurface flatStrip).d1 u v).2.y v ∧
        HasDerivAt _ ((twistSurface flatStrip).d1 u v).2.z v
      rw [hd]
      exact ⟨hasDerivAt_const v u, hasDerivAt_id v, hasDerivAt_const v 0⟩
    · show _ = ((twistSurface flatStrip).d1 u v).1.cross ((twistSurface flatStrip).d1 u v).2
      rw [hd]
      ext <;> simp [V3.cross]
    · have := congrArg V3.z h
      simp at this
  points p := by
    constructor
    · rintro ⟨h1, h2, h3⟩
      exact ⟨p.x, p.y, ⟨h1, h2⟩, by ext <;> simp [h3]⟩
    · rintro ⟨u, v, ⟨h1, h2⟩, rfl⟩
      exact ⟨h1, h2, rfl⟩

theorem twisted_smooth : SmoothFace twistLibrary twisted strip (fun u v => ⟨u, v, v * slope u⟩)
    (fun u v => ⟨-(v * deriv slope u), -slope u, 1⟩) where
  kind := rfl
  bounded := by
    refine ⟨⟨0, -1, -1⟩, ⟨1, 1, 1⟩, fun p ⟨h1, h2, h3⟩ => ⟨h1.1, h1.2, h2.1, h2.2, ?_, ?_⟩⟩
    all_goals
      have hs := slope_pos h1.1 h1.2
      have hs1 : slope p.x ≤ 1 := by
        unfold slope
        have := sq_nonneg (p.x * (p.x - 1 / 4) * (p.x - 1 / 2) * (p.x - 3 / 4) * (p.x - 1))
        linarith
      show _ ≤ _
      rw [h3]
      show _ ≤ _
      nlinarith [h2.1, h2.2]
  surface := by
    have hm : ¬ (⟨0, 1, 0⟩ : V3) ∈ twisted.points := by
      rintro ⟨_, _, h⟩
      have h : (0 : ℝ) = 1 * slope 0 := h
      norm_num [slope] at h
    have hd : ∀ u v, ((twistSurface twisted).d1 u v) = (⟨1, 0, v * deriv slope u⟩, ⟨0, 1, slope u⟩) := fun u v => if_neg hm
    refine ⟨fun u v _ => rfl, fun u v _ => rfl, fun u v => ?_, fun u v => ?_, fun u v => ?_, fun u v h => ?_⟩
    · show HasDerivAt _ ((twistSurface twisted).d1 u v).1.x u ∧ HasDerivAt _ ((twistSurface twisted).d1 u v).1.y u ∧
        HasDerivAt _ ((twistSurface twisted).d1 u v).1.z u
      rw [hd]
      exact ⟨hasDerivAt_id u, hasDerivAt_const u v, (slope_diff u).hasDerivAt.const_mul v⟩
    · show HasDerivAt _ ((twistSurface twisted).d1 u v).2.x v ∧ HasDerivAt _ ((twistSurface twisted).d1 u v).2.y v ∧
        HasDerivAt _ ((twistSurface twisted).d1 u v).2.z v
      rw [hd]
      exact ⟨hasDerivAt_const v u, hasDerivAt_id v, by simpa using (hasDerivAt_id v).mul_const (slope u)⟩
    · show _ = ((twistSurface twisted).d1 u v).1.cross ((twistSurface twisted).d1 u v).2
      rw [hd]
      ext <;> simp [V3.cross]
    · have := congrArg V3.z h
      simp at this
  points p := by
    constructor
    · rintro ⟨h1, h2, h3⟩
      exact ⟨p.x, p.y, ⟨h1, h2⟩, by ext <;> simp [h3]⟩
    · rintro ⟨u, v, ⟨h1, h2⟩, rfl⟩
      exact ⟨h1, h2, rfl⟩

theorem twist_edge (e : ℕ) (p : V3) : p ∈ edgePoints twistLibrary e ↔ p.y = 0 ∧ p.z = 0 ∧ 0 ≤ p.x ∧ p.x ≤ 1 := by
  constructor
  · rintro ⟨t, h0, h1, rfl⟩
    exact ⟨rfl, rfl, h0, h1⟩
  · rintro ⟨h1, h2, h3, h4⟩
    refine ⟨p.x, h3, h4, ?_⟩
    ext <;> simp [twistLibrary, faceLibrary, twistCurves, h1, h2]

theorem twist_exact : ExactFaceOps twistLibrary flatStrip twisted (1 / 10) where
  faces k hk := by cases hk
  edges e he p hp := by
    obtain ⟨h1, h2, h3⟩ := (twist_edge e p).1 hp
    exact ⟨⟨h3, by rw [h1]; norm_num, h2⟩, ⟨h3, by rw [h1]; norm_num, by rw [h1, h2, zero_mul]⟩⟩
  ends e _ := by
    have h1 : (twistEnds e).1 ∈ edgePoints twistLibrary e := (twist_edge e _).2 ⟨rfl, rfl, le_refl _, zero_le_one⟩
    have h2 : (twistEnds e).2 ∈ edgePoints twistLibrary e := (twist_edge e _).2 ⟨rfl, rfl, zero_le_one, le_refl _⟩
    refine ⟨h1, h2, fun v hv => ?_⟩
    have hv : v ∈ [(twistEnds e).1, (twistEnds e).2] := hv
    simp only [List.mem_cons, List.not_mem_nil, or_false] at hv
    rcases hv with rfl | rfl
    · exact h1
    · exact h2
  straight e _ _ := by
    refine ⟨fun p => ?_, ?_⟩
    · rw [twist_edge, Spec.onSegment_iff]
      constructor
      · rintro ⟨h1, h2, h3, h4⟩
        refine ⟨p.x, h3, h4, ?_⟩
        ext <;> simp [twistLibrary, faceLibrary, twistEnds, h1, h2]
      · rintro ⟨t, h0, h1, rfl⟩
        simp [twistLibrary, faceLibrary, twistEnds, h0, h1]
    · show (1 : ℝ) = Spec.dist ⟨0, 0, 0⟩ ⟨1, 0, 0⟩
      simp [Spec.dist]
  points p h := by rcases h with ⟨h, _⟩ | ⟨h, _⟩ <;> cases h
  covered p hp hq := by
    right; left
    obtain ⟨h1, _, hz⟩ := hp
    obtain ⟨_, _, hz'⟩ := hq
    rw [hz] at hz'
    have hy : p.y = 0 := by
      rcases mul_eq_zero.1 hz'.symm with h | h
      · exact h
      · exact absurd h (slope_pos h1.1 h1.2).ne'
    exact ⟨0, by simp [twistLibrary, faceLibrary, edgeOps], (twist_edge 0 p).2 ⟨hy, hz, h1⟩⟩

/-- The angle between the faces in a point of the axis. -/
noncomputable def twistAngle (x : ℝ) : ℝ := Real.arccos (1 / Real.sqrt (slope x ^ 2 + 1))

theorem twist_isPlaneAngle (x : ℝ) : Spec.IsPlaneAngle ⟨0, 0, 1⟩ ⟨-(0 * deriv slope x), -slope x, 1⟩ (twistAngle x) := by
  have h : twistAngle x ≤ Real.pi / 2 := Real.arccos_le_pi_div_two.2 (by positivity)
  have e : Spec.vecAngle ⟨0, 0, 1⟩ ⟨-(0 * deriv slope x), -slope x, 1⟩ = twistAngle x := by
    unfold Spec.vecAngle twistAngle
    norm_num [Spec.inner, Spec.norm]
  unfold Spec.IsPlaneAngle
  rw [e, min_eq_left (by linarith)]

theorem twist_at {x : ℝ} (h0 : 0 ≤ x) (h1 : x ≤ 1) :
    faceFaceAngleAt (twistSurface flatStrip) (twistSurface twisted) ⟨x, 0, 0⟩ = .val (twistAngle x) := by
  have hd : (x, (0 : ℝ)) ∈ strip := ⟨⟨h0, h1⟩, by norm_num⟩
  obtain ⟨θ, h, hp⟩ := C58_two_faces_partial twistCurves _ _ _ _ _ _ _ _ x 0 x 0 flatStrip_smooth.surface
    twisted_smooth.surface hd hd (by simp)
  rw [← planeAngle_unique hp (twist_isPlaneAngle x)]
  exact h

noncomputable def twistOps : List Op := [.setIntersectionEpsilon (1 / 10), .setMinIntersectingAngle (twistAngle 0)]

theorem twist_accepted :
    evaluate (libraryEngine twistLibrary) (run twistOps) (.shape flatStrip) (.shape twisted) = .val true := by
  have hact : ¬ (config twistOps.reverse).Inactive := by
    rintro ⟨_, h, _⟩
    cases h
  refine (C35_accepts_exact (libraryEngine twistLibrary) _ _ _ hact).2 ?_
  refine accept_edges boundedKernel_faithful boundedKernel_contains rfl rfl flatStrip_smooth.bounded twisted_smooth.bounded (by simp) ⟨⟨0, 0, 0⟩, ?_, ?_⟩
    (e := 1 / 10) (by norm_num) rfl ?_ ?_ ?_
  · refine ⟨⟨?_, ?_⟩, ⟨?_, ?_⟩, rfl⟩ <;> norm_num
  · refine ⟨⟨?_, ?_⟩, ⟨?_, ?_⟩, ?_⟩ <;> norm_num
  · intro l hl; cases hl
  · intro k _
    have hs : ∀ x ∈ fiveParams, (0 ≤ x ∧ x ≤ 1) ∧ twistAngle x = twistAngle 0 := by
      intro x hx
      simp only [fiveParams, List.mem_cons, List.not_mem_nil, or_false] at hx
      unfold twistAngle
      rcases hx with rfl | rfl | rfl | rfl | rfl <;> norm_num [slope]
    obtain ⟨v, hv, h1, h2, h3⟩ := minFold_val (fun t => faceFaceAngleAt (twistSurface flatStrip) (twistSurface twisted)
      ((twistCurves k).value ((twistCurves k).first + t * ((twistCurves k).last - (twistCurves k).first))))
      (fun _ => twistAngle 0) fiveParams (fun x hx => by
        obtain ⟨⟨h0, h1⟩, h2⟩ := hs x hx
        rw [← h2, ← twist_at h0 h1]
        simp [twistCurves]) doubleMax
    have hle : twistAngle 0 ≤ Real.pi / 2 := Real.arccos_le_pi_div_two.2 (by positivity)
    have : v = twistAngle 0 := by
      rcases h3 with h3 | ⟨_, _, h3⟩
      · have := h2 0 (by simp [fiveParams])
        have := doubleMax_large
        have := Real.pi_le_four
        linarith
      · exact h3
    refine ⟨twistAngle 0, ?_, hle, fun t ht => ?_⟩
    · show kernelEdgeAngle (faceFaceAngleAt (twistSurface flatStrip) (twistSurface twisted)) (twistCurves k) = _
      unfold kernelEdgeAngle minAngle
      rw [hv, this]
    · obtain rfl : twistAngle 0 = t := Option.some.inj ht
      exact le_refl _
  · intro b hb; cases hb

/-- The property does not hold: the angle of accepted faces is less than the minimum angle between the five points. -/
theorem C135_disproof : ¬ C135_full := by
  intro h
  have hd : ((1 / 8 : ℝ), (0 : ℝ)) ∈ strip := by
    refine ⟨⟨?_, ?_⟩, ⟨?_, ?_⟩⟩ <;> norm_num
  have := h twistLibrary boundedKernel_faithful boundedKernel_contains twistOps flatStrip twisted _ _ _ _ _ _ (1 / 10)
    (twistAngle 0) flatStrip_smooth twisted_smooth twist_exact (by norm_num) (.inl rfl) rfl twist_accepted ⟨1 / 8, 0, 0⟩
    ((flatStrip_smooth.points _).2 ⟨_, _, hd, rfl⟩) ((twisted_smooth.points _).2 ⟨_, _, hd, by simp⟩)
    (1 / 8) 0 (1 / 8) 0 hd hd rfl (by simp) _ (twist_isPlaneAngle (1 / 8))
  have hs : slope (1 / 8) < 1 := by norm_num [slope]
  have hp := slope_pos (x := 1 / 8) (by norm_num) (by norm_num)
  have h0 : slope 0 = 1 := by norm_num [slope]
  have lt : 1 / Real.sqrt (slope 0 ^ 2 + 1) < 1 / Real.sqrt (slope (1 / 8) ^ 2 + 1) := by
    refine one_div_lt_one_div_of_lt (by positivity) (Real.sqrt_lt_sqrt (by positivity) ?_)
    rw [h0]
    nlinarith
  have le1 : ∀ y : ℝ, 1 / Real.sqrt (y ^ 2 + 1) ≤ 1 := by
    intro y
    rw [div_le_one (by positivity)]
    exact Real.one_le_sqrt.2 (by nlinarith [sq_nonneg y])
  have nn : ∀ y : ℝ, -1 ≤ 1 / Real.sqrt (y ^ 2 + 1) := fun y => by
    have : 0 ≤ 1 / Real.sqrt (y ^ 2 + 1) := by positivity
    linarith
  have := Real.strictAntiOn_arccos ⟨nn _, le1 _⟩ ⟨nn _, le1 _⟩ lt
  unfold twistAngle at *
  linarith

/-- Non-trivial instance of the part that holds: the twisted face. -/
example : ∃ l, intersect twistLibrary.isk (.shape flatStrip) (.shape twisted) (1 / 10) = .val (.geoms (.list l)) ∧
    ∀ e a b, .edge e a b ∈ l → AngleIn strip (fun u v => ⟨u, v, 0⟩) (fun _ _ => ⟨0, 0, 1⟩) strip
      (fun u v => ⟨u, v, v * slope u⟩) (fun u v => ⟨-(v * deriv slope u), -slope u, 1⟩) (twistAngle 0) ⟨1 / 2, 0, 0⟩ := by
  obtain ⟨l, h1, _, h3, _⟩ := C135_samples_partial twistLibrary boundedKernel_faithful boundedKernel_contains twistOps
    flatStrip twisted _ _ _ _ _ _ (1 / 10) (twistAngle 0) flatStrip_smooth twisted_smooth twist_exact (by norm_num)
    (fun _ => zero_le_one) (.inl rfl) rfl twist_accepted
  refine ⟨l, h1, fun e a b h => ?_⟩
  have := h3 e a b h 2 (by norm_num)
  norm_num [twistLibrary, faceLibrary, twistCurves] at this
  exact this

end Props
