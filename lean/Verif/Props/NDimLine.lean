import Verif.Model.Geometry.NDimLine
import Verif.Props.NDim
import Mathlib.Analysis.Convex.Segment
import Mathlib.Tactic.Positivity

/-!
# Lines and segments of any dimension
-/

namespace Props
open Verif Frackit

/-! ## C104 Lines and segments in every dimension -/

/-- Points of a line. -/
def OnLineN {n : ℕ} (l : LineN n) (q : Coords n) : Prop := ∃ t : ℝ, euclid q = euclid l.support + t • euclid l.dir

/-- Points of a segment. -/
def OnSegmentN {n : ℕ} (s : SegmentN n) (q : Coords n) : Prop := euclid q ∈ segment ℝ (euclid s.source) (euclid s.target)

theorem euclid_between {n : ℕ} (a b : Coords n) : euclid (vectorBetween a b) = euclid b - euclid a := rfl

theorem euclid_projection {n : ℕ} (l : LineN n) (p : Coords n) : euclid (l.projection p) =
    euclid l.support + (inner ℝ (euclid l.dir) (euclid p - euclid l.support) : ℝ) • euclid l.dir := by
  rw [← euclid_between, ← scalarProduct_eq]
  ext i
  simp only [LineN.projection, Coords.moveForward, Coords.scale, PiLp.add_apply, PiLp.smul_apply, smul_eq_mul]
  ring

theorem euclid_getPoint {n : ℕ} (s : SegmentN n) (t : ℝ) : euclid (s.getPoint t) =
    euclid s.source + t • (euclid s.target - euclid s.source) := by
  ext i
  simp only [SegmentN.getPoint, Coords.moveForward, Coords.scale, vectorBetween, PiLp.add_apply, PiLp.smul_apply,
    smul_eq_mul, PiLp.sub_apply]
  ring

theorem euclid_inj {n : ℕ} {a b : Coords n} (h : euclid a = euclid b) : a = b := by
  funext i
  exact congrArg (fun x : EuclideanSpace ℝ (Fin n) => x i) h

/-- Squared distance of a point to the points of a line. -/
theorem dist_line_sq {E : Type*} [NormedAddCommGroup E] [InnerProductSpace ℝ E] (s d p : E) (hd : ‖d‖ = 1) (t : ℝ) :
    dist p (s + t • d) ^ 2 =
      dist p (s + (inner ℝ d (p - s) : ℝ) • d) ^ 2 + (t - (inner ℝ d (p - s) : ℝ)) ^ 2 := by
  have h : ∀ r : ℝ, dist p (s + r • d) ^ 2 = ‖p - s‖ ^ 2 - 2 * r * (inner ℝ d (p - s) : ℝ) + r ^ 2 := by
    intro r
    rw [dist_eq_norm, show p - (s + r • d) = (p - s) - r • d by abel, norm_sub_sq_real, norm_smul, mul_pow, hd,
      inner_smul_right, real_inner_comm, Real.norm_eq_abs, sq_abs]
    ring
  rw [h, h]
  ring

variable {n : ℕ}

/-- The projection on a line is on the line, and it is the only point of the line that is nearest. -/
theorem C104_projection (l : LineN n) (hd : l.dir.length = 1) (p : Coords n) :
    OnLineN l (l.projection p) ∧
    (∀ q, OnLineN l q → dist (euclid p) (euclid (l.projection p)) ≤ dist (euclid p) (euclid q)) ∧
    (∀ q, OnLineN l q → dist (euclid p) (euclid q) = dist (euclid p) (euclid (l.projection p)) → q = l.projection p) ∧
    (OnLineN l p → l.projection p = p) := by
  have hd' : ‖euclid l.dir‖ = 1 := by rw [← length_eq]; exact hd
  have hle : ∀ q, OnLineN l q → dist (euclid p) (euclid (l.projection p)) ≤ dist (euclid p) (euclid q) := by
    rintro q ⟨t, ht⟩
    have := dist_line_sq (euclid l.support) (euclid l.dir) (euclid p) hd' t
    rw [← euclid_projection, ← ht] at this
    exact abs_le_of_sq_le_sq' (by nlinarith [sq_nonneg (t - (inner ℝ (euclid l.dir) (euclid p - euclid l.support) : ℝ))])
      dist_nonneg |>.2
  have huniq : ∀ q, OnLineN l q → dist (euclid p) (euclid q) = dist (euclid p) (euclid (l.projection p)) →
      q = l.projection p := by
    rintro q ⟨t, ht⟩ e
    have := dist_line_sq (euclid l.support) (euclid l.dir) (euclid p) hd' t
    rw [← euclid_projection, ← ht, e] at this
    have h0 : t - (inner ℝ (euclid l.dir) (euclid p - euclid l.support) : ℝ) = 0 := by
      have : (t - (inner ℝ (euclid l.dir) (euclid p - euclid l.support) : ℝ)) ^ 2 = 0 := by linarith
      exact pow_eq_zero_iff (two_ne_zero) |>.1 this
    apply euclid_inj
    rw [ht, euclid_projection, sub_eq_zero.1 h0]
  refine ⟨⟨_, euclid_projection l p⟩, hle, huniq, fun h => ?_⟩
  refine (huniq p h ?_).symm
  have := hle p h
  rw [dist_self] at this ⊢
  exact (le_antisymm this dist_nonneg).symm

/-- A point is on a line up to a tolerance exactly if a point of the line is closer than the tolerance. -/
theorem C104_line_contains (l : LineN n) (hd : l.dir.length = 1) (p : Coords n) (eps : ℝ) (he : 0 < eps) :
    l.contains p eps ↔ ∃ q, OnLineN l q ∧ dist (euclid p) (euclid q) < eps := by
  have h0 : l.contains p eps ↔ dist (euclid p) (euclid (l.projection p)) < eps := by
    rw [LineN.contains, squaredLength_eq, euclid_between, ← dist_eq_norm, dist_comm, ← sq,
      sq_lt_sq₀ dist_nonneg he.le]
  obtain ⟨h1, h2, -, -⟩ := C104_projection l hd p
  rw [h0]
  exact ⟨fun h => ⟨_, h1, h⟩, fun ⟨q, hq, h⟩ => (h2 q hq).trans_lt h⟩

/-- `getPoint` yields exactly the points of the segment; ends, centre, length and the reversed segment. -/
theorem C104_points (s : SegmentN n) :
    (∀ p, OnSegmentN s p ↔ ∃ t, 0 ≤ t ∧ t ≤ 1 ∧ s.getPoint t = p) ∧
    s.getPoint 0 = s.source ∧ s.getPoint 1 = s.target ∧ (∀ t, s.getReversed.getPoint t = s.getPoint (1 - t)) ∧
    (∀ p, OnSegmentN s.getReversed p ↔ OnSegmentN s p) ∧
    s.length = dist (euclid s.source) (euclid s.target) ∧ s.squaredLength = s.length ^ 2 ∧
    dist (euclid s.source) (euclid s.center) = s.length / 2 ∧ dist (euclid s.target) (euclid s.center) = s.length / 2 ∧
    (∀ t u, dist (euclid (s.getPoint t)) (euclid (s.getPoint u)) = |t - u| * s.length) := by
  have hmem : ∀ p, OnSegmentN s p ↔ ∃ t, 0 ≤ t ∧ t ≤ 1 ∧ s.getPoint t = p := by
    intro p
    rw [OnSegmentN, segment_eq_image', Set.mem_image]
    constructor
    · rintro ⟨t, ⟨h0, h1⟩, h⟩
      exact ⟨t, h0, h1, euclid_inj (by rw [euclid_getPoint]; exact h)⟩
    · rintro ⟨t, h0, h1, rfl⟩
      exact ⟨t, ⟨h0, h1⟩, (euclid_getPoint s t).symm⟩
  have hlen : s.length = dist (euclid s.source) (euclid s.target) := by
    rw [SegmentN.length, length_eq, euclid_between, dist_comm, dist_eq_norm]
  have hd : ∀ t u, dist (euclid (s.getPoint t)) (euclid (s.getPoint u)) = |t - u| * s.length := by
    intro t u
    rw [euclid_getPoint, euclid_getPoint, dist_add_left, dist_eq_norm, ← sub_smul, norm_smul, hlen, dist_comm,
      dist_eq_norm, Real.norm_eq_abs]
  have h0 : s.getPoint 0 = s.source := euclid_inj (by rw [euclid_getPoint]; simp)
  have h1 : s.getPoint 1 = s.target := euclid_inj (by rw [euclid_getPoint]; simp)
  refine ⟨hmem, h0, h1, fun t => euclid_inj ?_, fun p => ?_, hlen, ?_, ?_, ?_, hd⟩
  · rw [euclid_getPoint, euclid_getPoint]
    simp only [SegmentN.getReversed]
    module
  · rw [OnSegmentN, OnSegmentN, segment_symm]; rfl
  · rw [SegmentN.squaredLength, SegmentN.length, squaredLength_eq, length_eq]
  · have := hd 0 (1 / 2)
    rw [h0] at this
    rw [SegmentN.center, this]
    norm_num
    ring
  · have := hd 1 (1 / 2)
    rw [h1] at this
    rw [SegmentN.center, this]
    norm_num
    ring

/-- Direction and position of a segment that is not a point. -/
theorem segmentN_frame (s : SegmentN n) (hs : s.source ≠ s.target) : ∃ d, s.direction = .val d ∧ ‖euclid d‖ = 1 ∧
    0 < s.length ∧ euclid s.target = euclid s.source + s.length • euclid d := by
  have hv : vectorBetween s.source s.target ≠ Coords.default n := by
    intro h
    apply hs
    funext i
    have := congrFun h i
    simp only [vectorBetween, Coords.default] at this
    linarith
  obtain ⟨d, h1, h2, h3, h4, -, -⟩ := (C83_direction (vectorBetween s.source s.target)).1 hv
  refine ⟨d, h1, by rw [← length_eq]; exact h2, h4, ?_⟩
  have := congrArg euclid h3
  have e : euclid (directionTimes d (vectorBetween s.source s.target).length) = s.length • euclid d := by
    ext i
    simp only [directionTimes, Coords.scale, PiLp.smul_apply, smul_eq_mul, SegmentN.length]
    ring
  rw [e, euclid_between] at this
  rw [this]
  abel

/-- A point is on a segment up to a tolerance exactly if a point of the segment is closer than the tolerance. -/
theorem C104_segment_contains (s : SegmentN n) (hs : s.source ≠ s.target) (p : Coords n) (eps : ℝ) (he : 0 < eps) :
    s.contains p eps ↔ ∃ q, OnSegmentN s q ∧ dist (euclid p) (euclid q) < eps := by
  obtain ⟨d, hdir, hd, hL, ht⟩ := segmentN_frame s hs
  obtain ⟨hmem, hp0, hp1, -, -, -, -, -, -, -⟩ := C104_points s
  set u : ℝ := inner ℝ (euclid d) (euclid p - euclid s.source) with hu
  have hline : s.supportingLine = .val ⟨s.source, d⟩ := by rw [SegmentN.supportingLine, hdir]; rfl
  have hsp1 : d.scalarProduct (vectorBetween s.source p) = u := by rw [scalarProduct_eq, euclid_between]
  have hsp2 : d.scalarProduct (vectorBetween s.target p) = u - s.length := by
    rw [scalarProduct_eq, euclid_between, ht,
      show euclid p - (euclid s.source + s.length • euclid d) = (euclid p - euclid s.source) - s.length • euclid d by abel,
      inner_sub_right, inner_smul_right, real_inner_self_eq_norm_sq, hd, ← hu]
    ring
  have hend : ∀ a : Coords n, (vectorBetween a p).squaredLength < eps * eps ↔ dist (euclid p) (euclid a) < eps := by
    intro a
    rw [squaredLength_eq, euclid_between, ← dist_eq_norm, ← sq, sq_lt_sq₀ dist_nonneg he.le]
  have hpos : ∀ t : ℝ, euclid (s.getPoint t) = euclid s.source + (t * s.length) • euclid d := by
    intro t
    rw [euclid_getPoint, ht]
    module
  have hdist : ∀ t : ℝ, dist (euclid p) (euclid s.source + t • euclid d) ^ 2 =
      dist (euclid p) (euclid s.source + u • euclid d) ^ 2 + (t - u) ^ 2 := dist_line_sq _ _ _ hd
  have hlc : (⟨s.source, d⟩ : LineN n).contains p eps ↔ dist (euclid p) (euclid s.source + u • euclid d) < eps := by
    rw [LineN.contains, squaredLength_eq, euclid_between, ← dist_eq_norm, dist_comm, ← sq,
      sq_lt_sq₀ dist_nonneg he.le, euclid_projection]
  have hsrc : euclid s.source + (0 : ℝ) • euclid d = euclid s.source := by simp
  have hmono : ∀ a b : ℝ, 0 ≤ a → 0 ≤ b → a ^ 2 ≤ b ^ 2 → a ≤ b := fun a b ha hb h => (sq_le_sq₀ ha hb).1 h
  unfold SegmentN.contains
  simp only [hline, hsp1, hsp2, hlc, hend, forall_const]
  constructor
  · rintro ⟨h1, h2 | h2 | h2⟩
    · have h3 : 0 ≤ u ∧ u ≤ s.length := by
        by_cases hu0 : u < 0
        · exact absurd (by linarith) (h2.1 hu0)
        · refine ⟨not_lt.1 hu0, ?_⟩
          by_contra h4
          exact hu0 (h2.2 (by linarith))
      refine ⟨s.getPoint (u / s.length), (hmem _).2 ⟨_, div_nonneg h3.1 hL.le, (div_le_one hL).2 h3.2, rfl⟩, ?_⟩
      rw [hpos, div_mul_cancel₀ _ hL.ne']
      exact h1
    · exact ⟨s.source, (hmem _).2 ⟨0, le_refl _, zero_le_one, hp0⟩, h2⟩
    · exact ⟨s.target, (hmem _).2 ⟨1, zero_le_one, le_refl _, hp1⟩, h2⟩
  · rintro ⟨q, hq, hqd⟩
    obtain ⟨t, t0, t1, rfl⟩ := (hmem q).1 hq
    rw [hpos] at hqd
    have hb0 : 0 ≤ t * s.length := mul_nonneg t0 hL.le
    have hb1 : t * s.length ≤ s.length := mul_le_of_le_one_left hL.le t1
    have hb := hdist (t * s.length)
    refine ⟨(hmono _ _ dist_nonneg dist_nonneg (by nlinarith [sq_nonneg (t * s.length - u)])).trans_lt hqd, ?_⟩
    by_cases hu0 : u < 0
    · refine Or.inr (Or.inl ?_)
      have h0 := hdist 0
      rw [hsrc] at h0
      refine (hmono _ _ dist_nonneg dist_nonneg ?_).trans_lt hqd
      rw [h0, hb]
      nlinarith
    · by_cases hu1 : u < s.length
      · exact Or.inl ⟨fun h => absurd h hu0, fun h => absurd (by linarith) h⟩
      · refine Or.inr (Or.inr ?_)
        have h0 := hdist s.length
        rw [← ht] at h0
        refine (hmono _ _ dist_nonneg dist_nonneg ?_).trans_lt hqd
        rw [h0, hb]
        nlinarith

/-- Points of the segment are contained also with the default tolerance; the orientation does not matter. -/
theorem C104_segment_default (s : SegmentN n) (hs : s.source ≠ s.target) (p : Coords n) :
    (s.containsDefault p ↔ ∃ q, OnSegmentN s q ∧ dist (euclid p) (euclid q) < 1e-7 * s.length) ∧
    (OnSegmentN s p → s.containsDefault p) ∧ (s.getReversed.containsDefault p ↔ s.containsDefault p) ∧
    (∀ eps, 0 < eps → (s.getReversed.contains p eps ↔ s.contains p eps)) := by
  obtain ⟨-, -, -, hL, -⟩ := segmentN_frame s hs
  obtain ⟨hmem, -, -, -, hrev, hlen, -, -, -, -⟩ := C104_points s
  have hc : (0 : ℝ) < confusion * s.length := mul_pos (by unfold confusion; norm_num) hL
  have h1 : ∀ eps, 0 < eps → (s.getReversed.contains p eps ↔ s.contains p eps) := by
    intro eps he
    rw [C104_segment_contains s hs p eps he, C104_segment_contains s.getReversed (fun h => hs h.symm) p eps he]
    simp only [hrev]
  have hlen' : s.getReversed.length = s.length := by
    rw [(C104_points s.getReversed).2.2.2.2.2.1, hlen, dist_comm]; rfl
  have h2 : s.containsDefault p ↔ ∃ q, OnSegmentN s q ∧ dist (euclid p) (euclid q) < 1e-7 * s.length := by
    have hce : (confusion : ℝ) = 1e-7 := by unfold confusion; norm_num
    rw [← hce]
    exact C104_segment_contains s hs p _ hc
  refine ⟨h2, fun h => h2.2 ⟨p, h, ?_⟩, ?_, h1⟩
  · rw [dist_self]; positivity
  · rw [SegmentN.containsDefault, hlen']
    exact h1 _ hc

/-- The check of the line can be skipped for points of the supporting line. -/
theorem C104_skip_line_check (s : SegmentN n) (p : Coords n) (eps : ℝ) (he : 0 < eps) {l : LineN n}
    (hl : s.supportingLine = .val l) (hp : OnLineN l p) : s.contains p eps false ↔ s.contains p eps true := by
  have hs : s.source ≠ s.target := by
    intro h
    have hz : vectorBetween s.source s.target = Coords.default n := by
      funext i; simp [vectorBetween, Coords.default, h]
    rw [SegmentN.supportingLine, SegmentN.direction, hz, (C83_direction (Coords.default n)).2] at hl
    cases hl
  obtain ⟨d, hdir, hd, -, -⟩ := segmentN_frame s hs
  have hline : s.supportingLine = .val ⟨s.source, d⟩ := by rw [SegmentN.supportingLine, hdir]; rfl
  have hle : l = ⟨s.source, d⟩ := by rw [hline] at hl; exact (Outcome.val.inj hl).symm
  subst hle
  have hon : (⟨s.source, d⟩ : LineN n).contains p eps :=
    (C104_line_contains _ (by rw [length_eq]; exact hd) p eps he).2 ⟨p, hp, by rw [dist_self]; exact he⟩
  unfold SegmentN.contains
  simp [hline, hon]

/-- In the plane: the point (1, 1/2) is on the segment from (0, 0) to (2, 0) with the tolerance 1, not with 1/4. -/
example : (⟨![0, 0], ![2, 0]⟩ : SegmentN 2).contains ![1, 1 / 2] 1 ∧
    ¬ (⟨![0, 0], ![2, 0]⟩ : SegmentN 2).contains ![1, 1 / 2] (1 / 4) := by
  have hs : (⟨![0, 0], ![2, 0]⟩ : SegmentN 2).source ≠ (⟨![0, 0], ![2, 0]⟩ : SegmentN 2).target := by
    intro h
    have := congrFun h 0
    simp at this
  have hmem := (C104_points (⟨![0, 0], ![2, 0]⟩ : SegmentN 2)).1
  constructor
  · rw [C104_segment_contains _ hs _ _ one_pos]
    refine ⟨_, (hmem _).2 ⟨1 / 2, by norm_num, by norm_num, rfl⟩, ?_⟩
    rw [EuclideanSpace.dist_eq, Fin.sum_univ_two, Real.sqrt_lt' one_pos]
    simp [SegmentN.getPoint, Coords.moveForward, Coords.scale, vectorBetween]
    norm_num
  · rw [C104_segment_contains _ hs _ _ (by norm_num)]
    rintro ⟨q, hq, hqd⟩
    obtain ⟨t, -, -, rfl⟩ := (hmem q).1 hq
    rw [EuclideanSpace.dist_eq, Fin.sum_univ_two, Real.sqrt_lt' (by norm_num)] at hqd
    simp [SegmentN.getPoint, Coords.moveForward, Coords.scale, vectorBetween, Real.dist_eq] at hqd
    nlinarith [sq_nonneg (1 - 2 * t)]

end Props
