import Verif.Model.Intersection.SegmentSegment
import Verif.Props.Segment

/-!
# Intersection of collinear segments (C51)
-/

namespace Props
open Verif Frackit

/-! ## Coordinates on a line -/

/-- The point with coordinate `t` on the line through `o` with direction `d`. -/
def onAxis (o d : V3) (t : ℝ) : V3 := o + t • d

theorem onAxis_dist {o d : V3} (hd : Spec.IsUnit d) (x y : ℝ) :
    Spec.dist (onAxis o d x) (onAxis o d y) = |x - y| := by
  have hn := (Spec.isUnit_iff d).1 hd
  unfold onAxis
  rw [Spec.dist_eq_len, show o + x • d - (o + y • d) = (x - y) • d by module, V3.len_smul]
  unfold V3.len
  rw [hn, Real.sqrt_one, mul_one]

theorem onAxis_inj {o d : V3} (hd : Spec.IsUnit d) {x y : ℝ} (h : onAxis o d x = onAxis o d y) :
    x = y := by
  have h1 := onAxis_dist (o := o) hd x y
  rw [h, Spec.dist_eq_len, sub_self] at h1
  have : (0 : V3).len = 0 := V3.len_eq_zero.2 rfl
  rw [this] at h1
  exact sub_eq_zero.1 (abs_eq_zero.1 h1.symm)

theorem onAxis_segment {o d : V3} (a b : ℝ) (p : V3) :
    Spec.OnSegment (onAxis o d a) (onAxis o d b) p ↔
      ∃ x, min a b ≤ x ∧ x ≤ max a b ∧ p = onAxis o d x := by
  rw [Spec.onSegment_iff]
  unfold onAxis
  constructor
  · rintro ⟨t, h0, h1, rfl⟩
    refine ⟨a + t * (b - a), ?_, ?_, by module⟩
    · rcases le_total a b with h | h
      · rw [min_eq_left h]; nlinarith
      · rw [min_eq_right h]; nlinarith
    · rcases le_total a b with h | h
      · rw [max_eq_right h]; nlinarith
      · rw [max_eq_left h]; nlinarith
  · rintro ⟨x, h0, h1, rfl⟩
    by_cases hab : a = b
    · subst hab
      rw [min_self] at h0
      rw [max_self] at h1
      have : x = a := le_antisymm h1 h0
      subst this
      exact ⟨0, le_rfl, zero_le_one, by module⟩
    · have hne : b - a ≠ 0 := sub_ne_zero.2 (Ne.symm hab)
      refine ⟨(x - a) / (b - a), ?_, ?_, ?_⟩
      · rcases le_total a b with h | h
        · rw [min_eq_left h] at h0
          exact div_nonneg (by linarith) (by linarith)
        · rw [max_eq_left h] at h1
          exact div_nonneg_of_nonpos (by linarith) (by linarith)
      · rcases lt_or_gt_of_ne hab with h | h
        · rw [max_eq_right h.le] at h1
          rw [div_le_one (by linarith)]; linarith
        · rw [min_eq_right h.le] at h0
          rw [div_le_one_of_neg (by linarith)]; linarith
      · rw [show o + a • d + ((x - a) / (b - a)) • (o + b • d - (o + a • d))
          = o + (a + (x - a) / (b - a) * (b - a)) • d by module, div_mul_cancel₀ _ hne]
        congr 2; ring

theorem onAxis_onSegment {o d : V3} (hd : Spec.IsUnit d) (a b x : ℝ) :
    Spec.OnSegment (onAxis o d a) (onAxis o d b) (onAxis o d x) ↔ min a b ≤ x ∧ x ≤ max a b := by
  rw [onAxis_segment]
  constructor
  · rintro ⟨y, h0, h1, h⟩
    rw [onAxis_inj hd h]; exact ⟨h0, h1⟩
  · rintro ⟨h0, h1⟩; exact ⟨x, h0, h1, rfl⟩

theorem onAxis_near {o d : V3} (hd : Spec.IsUnit d) (a b x eps : ℝ) (he : 0 < eps) :
    (∃ q, Spec.OnSegment (onAxis o d a) (onAxis o d b) q ∧ Spec.dist (onAxis o d x) q < eps) ↔
      min a b - eps < x ∧ x < max a b + eps := by
  have hmm : min a b ≤ max a b := min_le_max
  constructor
  · rintro ⟨q, hq, hd'⟩
    obtain ⟨y, h0, h1, rfl⟩ := (onAxis_segment a b q).1 hq
    rw [onAxis_dist hd, abs_lt] at hd'
    constructor <;> linarith
  · rintro ⟨h0, h1⟩
    rcases lt_or_ge x (min a b) with h | h
    · refine ⟨onAxis o d (min a b), (onAxis_segment _ _ _).2 ⟨_, le_rfl, hmm, rfl⟩, ?_⟩
      rw [onAxis_dist hd, abs_lt]; constructor <;> linarith
    · rcases lt_or_ge (max a b) x with h' | h'
      · refine ⟨onAxis o d (max a b), (onAxis_segment _ _ _).2 ⟨_, hmm, le_rfl, rfl⟩, ?_⟩
        rw [onAxis_dist hd, abs_lt]; constructor <;> linarith
      · refine ⟨onAxis o d x, (onAxis_segment _ _ _).2 ⟨_, h, h', rfl⟩, ?_⟩
        rw [onAxis_dist hd, sub_self, abs_zero]; exact he

theorem onAxis_onLine (o d : V3) (x : ℝ) : Spec.OnLine o d (onAxis o d x) :=
  (Spec.onLine_iff _ _ _).2 ⟨x, rfl⟩

theorem onAxis_contains {o d : V3} (hd : Spec.IsUnit d) {a b : ℝ} (hab : a ≠ b) (x eps : ℝ)
    (he : 0 < eps) :
    (⟨onAxis o d a, onAxis o d b⟩ : Segment).contains (onAxis o d x) eps false ↔
      min a b - eps < x ∧ x < max a b + eps := by
  have hne : onAxis o d a ≠ onAxis o d b := fun h => hab (onAxis_inj hd h)
  rw [C08_skip_line_check _ _ _ hne he ⟨o, d, onAxis_onLine _ _ _, onAxis_onLine _ _ _,
    onAxis_onLine _ _ _⟩, C08_contains_iff_within_eps _ _ _ hne he]
  exact onAxis_near hd a b x eps he

/-- The direction of a segment on the axis is the direction of the axis or its opposite. -/
theorem onAxis_direction {o d : V3} (hd : Spec.IsUnit d) {a b : ℝ} (hab : a ≠ b) :
    mkDirection (onAxis o d b - onAxis o d a) = .val d ∨
    mkDirection (onAxis o d b - onAxis o d a) = .val (-d) := by
  have hn := (Spec.isUnit_iff d).1 hd
  have hl : d.len = 1 := by unfold V3.len; rw [hn, Real.sqrt_one]
  have e : onAxis o d b - onAxis o d a = (b - a) • d := by unfold onAxis; module
  have hlen : ((b - a) • d).len = |b - a| := by rw [V3.len_smul, hl, mul_one]
  have hne : |b - a| ≠ 0 := abs_ne_zero.2 (sub_ne_zero.2 (Ne.symm hab))
  unfold mkDirection
  rw [e, hlen, if_neg hne, V3.sdiv_eq, smul_smul]
  rcases lt_or_gt_of_ne hab with h | h
  · left
    rw [abs_of_pos (by linarith), inv_mul_cancel₀ (by linarith), one_smul]
  · right
    rw [abs_of_neg (by linarith), show (-(b - a))⁻¹ * (b - a) = -1 by
      rw [neg_inv.symm, neg_mul, inv_mul_cancel₀ (by linarith)]]
    congr 1; module

theorem unit_len {d : V3} (hd : Spec.IsUnit d) : d.len = 1 := by
  unfold V3.len; rw [(Spec.isUnit_iff d).1 hd, Real.sqrt_one]

theorem gpIsParallel_same {d u v : V3} (hd : Spec.IsUnit d) (hu : u = d ∨ u = -d)
    (hv : v = d ∨ v = -d) : gpIsParallel u v angular := by
  have hl := unit_len hd
  have hdd : d.dot d = 1 := by rw [← V3.sqLen_eq_dot]; exact (Spec.isUnit_iff d).1 hd
  have hpos := angular_pos
  unfold gpIsParallel gpAngle
  rcases hu with rfl | rfl <;> rcases hv with rfl | rfl
  · left; simp only [hdd, hl, mul_one, div_one, Real.arccos_one]; exact hpos.le
  · right
    simp only [V3.dot_neg, hdd, V3.len_neg, hl, mul_one, div_one, Real.arccos_neg_one, sub_self]
    exact hpos.le
  · right
    simp only [V3.neg_dot, hdd, V3.len_neg, hl, mul_one, div_one, Real.arccos_neg_one, sub_self]
    exact hpos.le
  · left
    simp only [V3.neg_dot, V3.dot_neg, neg_neg, hdd, V3.len_neg, hl, mul_one, div_one,
      Real.arccos_one]
    exact hpos.le

/-! ## The overlap in coordinates -/

/-- What the overlap of two segments on an axis is, in coordinates: the returned segment `u v`. -/
structure Overlap1 (a1 b1 a2 b2 eps u v : ℝ) : Prop where
  covers : ∀ x, min a1 b1 ≤ x → x ≤ max a1 b1 → min a2 b2 ≤ x → x ≤ max a2 b2 →
    min u v ≤ x ∧ x ≤ max u v
  near1 : min a1 b1 - eps < min u v ∧ max u v < max a1 b1 + eps
  near2 : min a2 b2 - eps < min u v ∧ max u v < max a2 b2 + eps
  meets : min a2 b2 - eps < max a1 b1 ∧ min a1 b1 - eps < max a2 b2
  exact_ : (∀ x ∈ [a1, b1], ∀ y ∈ [a2, b2], x = y ∨ eps ≤ |x - y|) →
    min u v = max (min a1 b1) (min a2 b2) ∧ max u v = min (max a1 b1) (max a2 b2)

theorem sep4 {a1 b1 a2 b2 eps : ℝ}
    (h : ∀ x ∈ [a1, b1], ∀ y ∈ [a2, b2], x = y ∨ eps ≤ |x - y|) :
    (a1 = a2 ∨ eps ≤ a1 - a2 ∨ eps ≤ a2 - a1) ∧ (a1 = b2 ∨ eps ≤ a1 - b2 ∨ eps ≤ b2 - a1) ∧
    (b1 = a2 ∨ eps ≤ b1 - a2 ∨ eps ≤ a2 - b1) ∧ (b1 = b2 ∨ eps ≤ b1 - b2 ∨ eps ≤ b2 - b1) := by
  have h1 := h a1 (by simp) a2 (by simp)
  have h2 := h a1 (by simp) b2 (by simp)
  have h3 := h b1 (by simp) a2 (by simp)
  have h4 := h b1 (by simp) b2 (by simp)
  rw [le_abs, neg_sub] at h1 h2 h3 h4
  exact ⟨h1, h2, h3, h4⟩

theorem overlap1_case1 {a1 b1 a2 b2 eps : ℝ} (he : 0 < eps) (h1 : a1 ≠ b1) (h2 : a2 ≠ b2)
    (p : ((min a1 b1 - eps < a2 ∧ a2 < max a1 b1 + eps) ∧ (min a1 b1 - eps < b2 ∧ b2 < max a1 b1 + eps))) :
    Overlap1 a1 b1 a2 b2 eps a2 b2 := by
  rcases lt_or_gt_of_ne h1 with h1 | h1 <;> rcases lt_or_gt_of_ne h2 with h2 | h2
  · simp only [min_eq_left h1.le, max_eq_right h1.le, min_eq_left h2.le, max_eq_right h2.le] at *
    constructor
    · simp only [min_eq_left h1.le, max_eq_right h1.le, min_eq_left h2.le, max_eq_right h2.le]; grind
    · simp only [min_eq_left h1.le, max_eq_right h1.le, min_eq_left h2.le, max_eq_right h2.le]; grind
    · simp only [min_eq_left h1.le, max_eq_right h1.le, min_eq_left h2.le, max_eq_right h2.le]; grind
    · simp only [min_eq_left h1.le, max_eq_right h1.le, min_eq_left h2.le, max_eq_right h2.le]; grind
    · intro h
      simp only [min_eq_left h1.le, max_eq_right h1.le, min_eq_left h2.le, max_eq_right h2.le]
      obtain ⟨k1, k2, k3, k4⟩ := sep4 h
      clear h
      grind
  · simp only [min_eq_left h1.le, max_eq_right h1.le, min_eq_right h2.le, max_eq_left h2.le] at *
    constructor
    · simp only [min_eq_left h1.le, max_eq_right h1.le, min_eq_right h2.le, max_eq_left h2.le]; grind
    · simp only [min_eq_left h1.le, max_eq_right h1.le, min_eq_right h2.le, max_eq_left h2.le]; grind
    · simp only [min_eq_left h1.le, max_eq_right h1.le, min_eq_right h2.le, max_eq_left h2.le]; grind
    · simp only [min_eq_left h1.le, max_eq_right h1.le, min_eq_right h2.le, max_eq_left h2.le]; grind
    · intro h
      simp only [min_eq_left h1.le, max_eq_right h1.le, min_eq_right h2.le, max_eq_left h2.le]
      obtain ⟨k1, k2, k3, k4⟩ := sep4 h
      clear h
      grind
  · simp only [min_eq_right h1.le, max_eq_left h1.le, min_eq_left h2.le, max_eq_right h2.le] at *
    constructor
    · simp only [min_eq_right h1.le, max_eq_left h1.le, min_eq_left h2.le, max_eq_right h2.le]; grind
    · simp only [min_eq_right h1.le, max_eq_left h1.le, min_eq_left h2.le, max_eq_right h2.le]; grind
    · simp only [min_eq_right h1.le, max_eq_left h1.le, min_eq_left h2.le, max_eq_right h2.le]; grind
    · simp only [min_eq_right h1.le, max_eq_left h1.le, min_eq_left h2.le, max_eq_right h2.le]; grind
    · intro h
      simp only [min_eq_right h1.le, max_eq_left h1.le, min_eq_left h2.le, max_eq_right h2.le]
      obtain ⟨k1, k2, k3, k4⟩ := sep4 h
      clear h
      grind
  · simp only [min_eq_right h1.le, max_eq_left h1.le, min_eq_right h2.le, max_eq_left h2.le] at *
    constructor
    · simp only [min_eq_right h1.le, max_eq_left h1.le, min_eq_right h2.le, max_eq_left h2.le]; grind
    · simp only [min_eq_right h1.le, max_eq_left h1.le, min_eq_right h2.le, max_eq_left h2.le]; grind
    · simp only [min_eq_right h1.le, max_eq_left h1.le, min_eq_right h2.le, max_eq_left h2.le]; grind
    · simp only [min_eq_right h1.le, max_eq_left h1.le, min_eq_right h2.le, max_eq_left h2.le]; grind
    · intro h
      simp only [min_eq_right h1.le, max_eq_left h1.le, min_eq_right h2.le, max_eq_left h2.le]
      obtain ⟨k1, k2, k3, k4⟩ := sep4 h
      clear h
      grind

theorem overlap1_case2 {a1 b1 a2 b2 eps : ℝ} (he : 0 < eps) (h1 : a1 ≠ b1) (h2 : a2 ≠ b2)
    (p : ((min a2 b2 - eps < a1 ∧ a1 < max a2 b2 + eps) ∧ (min a2 b2 - eps < b1 ∧ b1 < max a2 b2 + eps))) :
    Overlap1 a1 b1 a2 b2 eps a1 b1 := by
  rcases lt_or_gt_of_ne h1 with h1 | h1 <;> rcases lt_or_gt_of_ne h2 with h2 | h2
  · simp only [min_eq_left h1.le, max_eq_right h1.le, min_eq_left h2.le, max_eq_right h2.le] at *
    constructor
    · simp only [min_eq_left h1.le, max_eq_right h1.le, min_eq_left h2.le, max_eq_right h2.le]; grind
    · simp only [min_eq_left h1.le, max_eq_right h1.le, min_eq_left h2.le, max_eq_right h2.le]; grind
    · simp only [min_eq_left h1.le, max_eq_right h1.le, min_eq_left h2.le, max_eq_right h2.le]; grind
    · simp only [min_eq_left h1.le, max_eq_right h1.le, min_eq_left h2.le, max_eq_right h2.le]; grind
    · intro h
      simp only [min_eq_left h1.le, max_eq_right h1.le, min_eq_left h2.le, max_eq_right h2.le]
      obtain ⟨k1, k2, k3, k4⟩ := sep4 h
      clear h
      grind
  · simp only [min_eq_left h1.le, max_eq_right h1.le, min_eq_right h2.le, max_eq_left h2.le] at *
    constructor
    · simp only [min_eq_left h1.le, max_eq_right h1.le, min_eq_right h2.le, max_eq_left h2.le]; grind
    · simp only [min_eq_left h1.le, max_eq_right h1.le, min_eq_right h2.le, max_eq_left h2.le]; grind
    · simp only [min_eq_left h1.le, max_eq_right h1.le, min_eq_right h2.le, max_eq_left h2.le]; grind
    · simp only [min_eq_left h1.le, max_eq_right h1.le, min_eq_right h2.le, max_eq_left h2.le]; grind
    · intro h
      simp only [min_eq_left h1.le, max_eq_right h1.le, min_eq_right h2.le, max_eq_left h2.le]
      obtain ⟨k1, k2, k3, k4⟩ := sep4 h
      clear h
      grind
  · simp only [min_eq_right h1.le, max_eq_left h1.le, min_eq_left h2.le, max_eq_right h2.le] at *
    constructor
    · simp only [min_eq_right h1.le, max_eq_left h1.le, min_eq_left h2.le, max_eq_right h2.le]; grind
    · simp only [min_eq_right h1.le, max_eq_left h1.le, min_eq_left h2.le, max_eq_right h2.le]; grind
    · simp only [min_eq_right h1.le, max_eq_left h1.le, min_eq_left h2.le, max_eq_right h2.le]; grind
    · simp only [min_eq_right h1.le, max_eq_left h1.le, min_eq_left h2.le, max_eq_right h2.le]; grind
    · intro h
      simp only [min_eq_right h1.le, max_eq_left h1.le, min_eq_left h2.le, max_eq_right h2.le]
      obtain ⟨k1, k2, k3, k4⟩ := sep4 h
      clear h
      grind
  · simp only [min_eq_right h1.le, max_eq_left h1.le, min_eq_right h2.le, max_eq_left h2.le] at *
    constructor
    · simp only [min_eq_right h1.le, max_eq_left h1.le, min_eq_right h2.le, max_eq_left h2.le]; grind
    · simp only [min_eq_right h1.le, max_eq_left h1.le, min_eq_right h2.le, max_eq_left h2.le]; grind
    · simp only [min_eq_right h1.le, max_eq_left h1.le, min_eq_right h2.le, max_eq_left h2.le]; grind
    · simp only [min_eq_right h1.le, max_eq_left h1.le, min_eq_right h2.le, max_eq_left h2.le]; grind
    · intro h
      simp only [min_eq_right h1.le, max_eq_left h1.le, min_eq_right h2.le, max_eq_left h2.le]
      obtain ⟨k1, k2, k3, k4⟩ := sep4 h
      clear h
      grind

theorem overlap1_case3 {a1 b1 a2 b2 eps : ℝ} (he : 0 < eps) (h1 : a1 ≠ b1) (h2 : a2 ≠ b2)
    (p1 : ¬ ((min a1 b1 - eps < a2 ∧ a2 < max a1 b1 + eps) ∧ (min a1 b1 - eps < b2 ∧ b2 < max a1 b1 + eps)))
    (p2 : ¬ ((min a2 b2 - eps < a1 ∧ a1 < max a2 b2 + eps) ∧ (min a2 b2 - eps < b1 ∧ b1 < max a2 b2 + eps)))
    (p : ((min a1 b1 - eps < a2 ∧ a2 < max a1 b1 + eps) ∧ (min a2 b2 - eps < a1 ∧ a1 < max a2 b2 + eps))) :
    Overlap1 a1 b1 a2 b2 eps a2 a1 := by
  rcases lt_or_gt_of_ne h1 with h1 | h1 <;> rcases lt_or_gt_of_ne h2 with h2 | h2
  · simp only [min_eq_left h1.le, max_eq_right h1.le, min_eq_left h2.le, max_eq_right h2.le] at *
    constructor
    · simp only [min_eq_left h1.le, max_eq_right h1.le, min_eq_left h2.le, max_eq_right h2.le]; grind
    · simp only [min_eq_left h1.le, max_eq_right h1.le, min_eq_left h2.le, max_eq_right h2.le]; grind
    · simp only [min_eq_left h1.le, max_eq_right h1.le, min_eq_left h2.le, max_eq_right h2.le]; grind
    · simp only [min_eq_left h1.le, max_eq_right h1.le, min_eq_left h2.le, max_eq_right h2.le]; grind
    · intro h
      simp only [min_eq_left h1.le, max_eq_right h1.le, min_eq_left h2.le, max_eq_right h2.le]
      obtain ⟨k1, k2, k3, k4⟩ := sep4 h
      clear h
      grind
  · simp only [min_eq_left h1.le, max_eq_right h1.le, min_eq_right h2.le, max_eq_left h2.le] at *
    constructor
    · simp only [min_eq_left h1.le, max_eq_right h1.le, min_eq_right h2.le, max_eq_left h2.le]; grind
    · simp only [min_eq_left h1.le, max_eq_right h1.le, min_eq_right h2.le, max_eq_left h2.le]; grind
    · simp only [min_eq_left h1.le, max_eq_right h1.le, min_eq_right h2.le, max_eq_left h2.le]; grind
    · simp only [min_eq_left h1.le, max_eq_right h1.le, min_eq_right h2.le, max_eq_left h2.le]; grind
    · intro h
      simp only [min_eq_left h1.le, max_eq_right h1.le, min_eq_right h2.le, max_eq_left h2.le]
      obtain ⟨k1, k2, k3, k4⟩ := sep4 h
      clear h
      grind
  · simp only [min_eq_right h1.le, max_eq_left h1.le, min_eq_left h2.le, max_eq_right h2.le] at *
    constructor
    · simp only [min_eq_right h1.le, max_eq_left h1.le, min_eq_left h2.le, max_eq_right h2.le]; grind
    · simp only [min_eq_right h1.le, max_eq_left h1.le, min_eq_left h2.le, max_eq_right h2.le]; grind
    · simp only [min_eq_right h1.le, max_eq_left h1.le, min_eq_left h2.le, max_eq_right h2.le]; grind
    · simp only [min_eq_right h1.le, max_eq_left h1.le, min_eq_left h2.le, max_eq_right h2.le]; grind
    · intro h
      simp only [min_eq_right h1.le, max_eq_left h1.le, min_eq_left h2.le, max_eq_right h2.le]
      obtain ⟨k1, k2, k3, k4⟩ := sep4 h
      clear h
      grind
  · simp only [min_eq_right h1.le, max_eq_left h1.le, min_eq_right h2.le, max_eq_left h2.le] at *
    constructor
    · simp only [min_eq_right h1.le, max_eq_left h1.le, min_eq_right h2.le, max_eq_left h2.le]; grind
    · simp only [min_eq_right h1.le, max_eq_left h1.le, min_eq_right h2.le, max_eq_left h2.le]; grind
    · simp only [min_eq_right h1.le, max_eq_left h1.le, min_eq_right h2.le, max_eq_left h2.le]; grind
    · simp only [min_eq_right h1.le, max_eq_left h1.le, min_eq_right h2.le, max_eq_left h2.le]; grind
    · intro h
      simp only [min_eq_right h1.le, max_eq_left h1.le, min_eq_right h2.le, max_eq_left h2.le]
      obtain ⟨k1, k2, k3, k4⟩ := sep4 h
      clear h
      grind

theorem overlap1_case4 {a1 b1 a2 b2 eps : ℝ} (he : 0 < eps) (h1 : a1 ≠ b1) (h2 : a2 ≠ b2)
    (p1 : ¬ ((min a1 b1 - eps < a2 ∧ a2 < max a1 b1 + eps) ∧ (min a1 b1 - eps < b2 ∧ b2 < max a1 b1 + eps)))
    (p2 : ¬ ((min a2 b2 - eps < a1 ∧ a1 < max a2 b2 + eps) ∧ (min a2 b2 - eps < b1 ∧ b1 < max a2 b2 + eps)))
    (p : ((min a1 b1 - eps < a2 ∧ a2 < max a1 b1 + eps) ∧ (min a2 b2 - eps < b1 ∧ b1 < max a2 b2 + eps))) :
    Overlap1 a1 b1 a2 b2 eps a2 b1 := by
  rcases lt_or_gt_of_ne h1 with h1 | h1 <;> rcases lt_or_gt_of_ne h2 with h2 | h2
  · simp only [min_eq_left h1.le, max_eq_right h1.le, min_eq_left h2.le, max_eq_right h2.le] at *
    constructor
    · simp only [min_eq_left h1.le, max_eq_right h1.le, min_eq_left h2.le, max_eq_right h2.le]; grind
    · simp only [min_eq_left h1.le, max_eq_right h1.le, min_eq_left h2.le, max_eq_right h2.le]; grind
    · simp only [min_eq_left h1.le, max_eq_right h1.le, min_eq_left h2.le, max_eq_right h2.le]; grind
    · simp only [min_eq_left h1.le, max_eq_right h1.le, min_eq_left h2.le, max_eq_right h2.le]; grind
    · intro h
      simp only [min_eq_left h1.le, max_eq_right h1.le, min_eq_left h2.le, max_eq_right h2.le]
      obtain ⟨k1, k2, k3, k4⟩ := sep4 h
      clear h
      grind
  · simp only [min_eq_left h1.le, max_eq_right h1.le, min_eq_right h2.le, max_eq_left h2.le] at *
    constructor
    · simp only [min_eq_left h1.le, max_eq_right h1.le, min_eq_right h2.le, max_eq_left h2.le]; grind
    · simp only [min_eq_left h1.le, max_eq_right h1.le, min_eq_right h2.le, max_eq_left h2.le]; grind
    · simp only [min_eq_left h1.le, max_eq_right h1.le, min_eq_right h2.le, max_eq_left h2.le]; grind
    · simp only [min_eq_left h1.le, max_eq_right h1.le, min_eq_right h2.le, max_eq_left h2.le]; grind
    · intro h
      simp only [min_eq_left h1.le, max_eq_right h1.le, min_eq_right h2.le, max_eq_left h2.le]
      obtain ⟨k1, k2, k3, k4⟩ := sep4 h
      clear h
      grind
  · simp only [min_eq_right h1.le, max_eq_left h1.le, min_eq_left h2.le, max_eq_right h2.le] at *
    constructor
    · simp only [min_eq_right h1.le, max_eq_left h1.le, min_eq_left h2.le, max_eq_right h2.le]; grind
    · simp only [min_eq_right h1.le, max_eq_left h1.le, min_eq_left h2.le, max_eq_right h2.le]; grind
    · simp only [min_eq_right h1.le, max_eq_left h1.le, min_eq_left h2.le, max_eq_right h2.le]; grind
    · simp only [min_eq_right h1.le, max_eq_left h1.le, min_eq_left h2.le, max_eq_right h2.le]; grind
    · intro h
      simp only [min_eq_right h1.le, max_eq_left h1.le, min_eq_left h2.le, max_eq_right h2.le]
      obtain ⟨k1, k2, k3, k4⟩ := sep4 h
      clear h
      grind
  · simp only [min_eq_right h1.le, max_eq_left h1.le, min_eq_right h2.le, max_eq_left h2.le] at *
    constructor
    · simp only [min_eq_right h1.le, max_eq_left h1.le, min_eq_right h2.le, max_eq_left h2.le]; grind
    · simp only [min_eq_right h1.le, max_eq_left h1.le, min_eq_right h2.le, max_eq_left h2.le]; grind
    · simp only [min_eq_right h1.le, max_eq_left h1.le, min_eq_right h2.le, max_eq_left h2.le]; grind
    · simp only [min_eq_right h1.le, max_eq_left h1.le, min_eq_right h2.le, max_eq_left h2.le]; grind
    · intro h
      simp only [min_eq_right h1.le, max_eq_left h1.le, min_eq_right h2.le, max_eq_left h2.le]
      obtain ⟨k1, k2, k3, k4⟩ := sep4 h
      clear h
      grind

theorem overlap1_case5 {a1 b1 a2 b2 eps : ℝ} (he : 0 < eps) (h1 : a1 ≠ b1) (h2 : a2 ≠ b2)
    (p1 : ¬ ((min a1 b1 - eps < a2 ∧ a2 < max a1 b1 + eps) ∧ (min a1 b1 - eps < b2 ∧ b2 < max a1 b1 + eps)))
    (p2 : ¬ ((min a2 b2 - eps < a1 ∧ a1 < max a2 b2 + eps) ∧ (min a2 b2 - eps < b1 ∧ b1 < max a2 b2 + eps)))
    (p : ((min a1 b1 - eps < b2 ∧ b2 < max a1 b1 + eps) ∧ (min a2 b2 - eps < a1 ∧ a1 < max a2 b2 + eps))) :
    Overlap1 a1 b1 a2 b2 eps b2 a1 := by
  rcases lt_or_gt_of_ne h1 with h1 | h1 <;> rcases lt_or_gt_of_ne h2 with h2 | h2
  · simp only [min_eq_left h1.le, max_eq_right h1.le, min_eq_left h2.le, max_eq_right h2.le] at *
    constructor
    · simp only [min_eq_left h1.le, max_eq_right h1.le, min_eq_left h2.le, max_eq_right h2.le]; grind
    · simp only [min_eq_left h1.le, max_eq_right h1.le, min_eq_left h2.le, max_eq_right h2.le]; grind
    · simp only [min_eq_left h1.le, max_eq_right h1.le, min_eq_left h2.le, max_eq_right h2.le]; grind
    · simp only [min_eq_left h1.le, max_eq_right h1.le, min_eq_left h2.le, max_eq_right h2.le]; grind
    · intro h
      simp only [min_eq_left h1.le, max_eq_right h1.le, min_eq_left h2.le, max_eq_right h2.le]
      obtain ⟨k1, k2, k3, k4⟩ := sep4 h
      clear h
      grind
  · simp only [min_eq_left h1.le, max_eq_right h1.le, min_eq_right h2.le, max_eq_left h2.le] at *
    constructor
    · simp only [min_eq_left h1.le, max_eq_right h1.le, min_eq_right h2.le, max_eq_left h2.le]; grind
    · simp only [min_eq_left h1.le, max_eq_right h1.le, min_eq_right h2.le, max_eq_left h2.le]; grind
    · simp only [min_eq_left h1.le, max_eq_right h1.le, min_eq_right h2.le, max_eq_left h2.le]; grind
    · simp only [min_eq_left h1.le, max_eq_right h1.le, min_eq_right h2.le, max_eq_left h2.le]; grind
    · intro h
      simp only [min_eq_left h1.le, max_eq_right h1.le, min_eq_right h2.le, max_eq_left h2.le]
      obtain ⟨k1, k2, k3, k4⟩ := sep4 h
      clear h
      grind
  · simp only [min_eq_right h1.le, max_eq_left h1.le, min_eq_left h2.le, max_eq_right h2.le] at *
    constructor
    · simp only [min_eq_right h1.le, max_eq_left h1.le, min_eq_left h2.le, max_eq_right h2.le]; grind
    · simp only [min_eq_right h1.le, max_eq_left h1.le, min_eq_left h2.le, max_eq_right h2.le]; grind
    · simp only [min_eq_right h1.le, max_eq_left h1.le, min_eq_left h2.le, max_eq_right h2.le]; grind
    · simp only [min_eq_right h1.le, max_eq_left h1.le, min_eq_left h2.le, max_eq_right h2.le]; grind
    · intro h
      simp only [min_eq_right h1.le, max_eq_left h1.le, min_eq_left h2.le, max_eq_right h2.le]
      obtain ⟨k1, k2, k3, k4⟩ := sep4 h
      clear h
      grind
  · simp only [min_eq_right h1.le, max_eq_left h1.le, min_eq_right h2.le, max_eq_left h2.le] at *
    constructor
    · simp only [min_eq_right h1.le, max_eq_left h1.le, min_eq_right h2.le, max_eq_left h2.le]; grind
    · simp only [min_eq_right h1.le, max_eq_left h1.le, min_eq_right h2.le, max_eq_left h2.le]; grind
    · simp only [min_eq_right h1.le, max_eq_left h1.le, min_eq_right h2.le, max_eq_left h2.le]; grind
    · simp only [min_eq_right h1.le, max_eq_left h1.le, min_eq_right h2.le, max_eq_left h2.le]; grind
    · intro h
      simp only [min_eq_right h1.le, max_eq_left h1.le, min_eq_right h2.le, max_eq_left h2.le]
      obtain ⟨k1, k2, k3, k4⟩ := sep4 h
      clear h
      grind

theorem overlap1_case6 {a1 b1 a2 b2 eps : ℝ} (he : 0 < eps) (h1 : a1 ≠ b1) (h2 : a2 ≠ b2)
    (p1 : ¬ ((min a1 b1 - eps < a2 ∧ a2 < max a1 b1 + eps) ∧ (min a1 b1 - eps < b2 ∧ b2 < max a1 b1 + eps)))
    (p2 : ¬ ((min a2 b2 - eps < a1 ∧ a1 < max a2 b2 + eps) ∧ (min a2 b2 - eps < b1 ∧ b1 < max a2 b2 + eps)))
    (p : ((min a1 b1 - eps < b2 ∧ b2 < max a1 b1 + eps) ∧ (min a2 b2 - eps < b1 ∧ b1 < max a2 b2 + eps))) :
    Overlap1 a1 b1 a2 b2 eps b2 b1 := by
  rcases lt_or_gt_of_ne h1 with h1 | h1 <;> rcases lt_or_gt_of_ne h2 with h2 | h2
  · simp only [min_eq_left h1.le, max_eq_right h1.le, min_eq_left h2.le, max_eq_right h2.le] at *
    constructor
    · simp only [min_eq_left h1.le, max_eq_right h1.le, min_eq_left h2.le, max_eq_right h2.le]; grind
    · simp only [min_eq_left h1.le, max_eq_right h1.le, min_eq_left h2.le, max_eq_right h2.le]; grind
    · simp only [min_eq_left h1.le, max_eq_right h1.le, min_eq_left h2.le, max_eq_right h2.le]; grind
    · simp only [min_eq_left h1.le, max_eq_right h1.le, min_eq_left h2.le, max_eq_right h2.le]; grind
    · intro h
      simp only [min_eq_left h1.le, max_eq_right h1.le, min_eq_left h2.le, max_eq_right h2.le]
      obtain ⟨k1, k2, k3, k4⟩ := sep4 h
      clear h
      grind
  · simp only [min_eq_left h1.le, max_eq_right h1.le, min_eq_right h2.le, max_eq_left h2.le] at *
    constructor
    · simp only [min_eq_left h1.le, max_eq_right h1.le, min_eq_right h2.le, max_eq_left h2.le]; grind
    · simp only [min_eq_left h1.le, max_eq_right h1.le, min_eq_right h2.le, max_eq_left h2.le]; grind
    · simp only [min_eq_left h1.le, max_eq_right h1.le, min_eq_right h2.le, max_eq_left h2.le]; grind
    · simp only [min_eq_left h1.le, max_eq_right h1.le, min_eq_right h2.le, max_eq_left h2.le]; grind
    · intro h
      simp only [min_eq_left h1.le, max_eq_right h1.le, min_eq_right h2.le, max_eq_left h2.le]
      obtain ⟨k1, k2, k3, k4⟩ := sep4 h
      clear h
      grind
  · simp only [min_eq_right h1.le, max_eq_left h1.le, min_eq_left h2.le, max_eq_right h2.le] at *
    constructor
    · simp only [min_eq_right h1.le, max_eq_left h1.le, min_eq_left h2.le, max_eq_right h2.le]; grind
    · simp only [min_eq_right h1.le, max_eq_left h1.le, min_eq_left h2.le, max_eq_right h2.le]; grind
    · simp only [min_eq_right h1.le, max_eq_left h1.le, min_eq_left h2.le, max_eq_right h2.le]; grind
    · simp only [min_eq_right h1.le, max_eq_left h1.le, min_eq_left h2.le, max_eq_right h2.le]; grind
    · intro h
      simp only [min_eq_right h1.le, max_eq_left h1.le, min_eq_left h2.le, max_eq_right h2.le]
      obtain ⟨k1, k2, k3, k4⟩ := sep4 h
      clear h
      grind
  · simp only [min_eq_right h1.le, max_eq_left h1.le, min_eq_right h2.le, max_eq_left h2.le] at *
    constructor
    · simp only [min_eq_right h1.le, max_eq_left h1.le, min_eq_right h2.le, max_eq_left h2.le]; grind
    · simp only [min_eq_right h1.le, max_eq_left h1.le, min_eq_right h2.le, max_eq_left h2.le]; grind
    · simp only [min_eq_right h1.le, max_eq_left h1.le, min_eq_right h2.le, max_eq_left h2.le]; grind
    · simp only [min_eq_right h1.le, max_eq_left h1.le, min_eq_right h2.le, max_eq_left h2.le]; grind
    · intro h
      simp only [min_eq_right h1.le, max_eq_left h1.le, min_eq_right h2.le, max_eq_left h2.le]
      obtain ⟨k1, k2, k3, k4⟩ := sep4 h
      clear h
      grind

theorem parallelOverlap_axis {o d : V3} (hd : Spec.IsUnit d) {a1 b1 a2 b2 eps : ℝ} (h1 : a1 ≠ b1)
    (h2 : a2 ≠ b2) (he : 0 < eps) {line1 : Line}
    (hl : (⟨onAxis o d a1, onAxis o d b1⟩ : Segment).supportingLine = .val line1) :
    (∃ u v, parallelOverlap ⟨onAxis o d a1, onAxis o d b1⟩ ⟨onAxis o d a2, onAxis o d b2⟩ line1 eps
        = some (.segment ⟨onAxis o d u, onAxis o d v⟩) ∧ Overlap1 a1 b1 a2 b2 eps u v) ∨
    (parallelOverlap ⟨onAxis o d a1, onAxis o d b1⟩ ⟨onAxis o d a2, onAxis o d b2⟩ line1 eps = none ∧
      (max a1 b1 + eps ≤ min a2 b2 ∨ max a2 b2 + eps ≤ min a1 b1)) := by
  have hn := (Spec.isUnit_iff d).1 hd
  have hcont : line1.contains (onAxis o d a2) eps := by
    have hne : onAxis o d a1 ≠ onAxis o d b1 := fun h => h1 (onAxis_inj hd h)
    have hex := onAxis_direction (o := o) hd h1
    have : ∃ e, (e = d ∨ e = -d) ∧ line1 = ⟨onAxis o d a1, e⟩ := by
      unfold Segment.supportingLine Segment.direction at hl
      rcases hex with h | h
      · simp only [h, Outcome.val_bind, Outcome.pure_eq, Outcome.val.injEq] at hl
        exact ⟨d, .inl rfl, hl.symm⟩
      · simp only [h, Outcome.val_bind, Outcome.pure_eq, Outcome.val.injEq] at hl
        exact ⟨-d, .inr rfl, hl.symm⟩
    obtain ⟨e, he', rfl⟩ := this
    have hz : (⟨onAxis o d a1, e⟩ : Line).projection (onAxis o d a2) = onAxis o d a2 := by
      unfold Line.projection onAxis
      rcases he' with rfl | rfl
      · simp only
        rw [show o + a2 • e - (o + a1 • e) = (a2 - a1) • e by module, V3.dot_smul,
          ← V3.sqLen_eq_dot, hn]; module
      · simp only
        rw [show o + a2 • d - (o + a1 • d) = (a2 - a1) • d by module, V3.dot_smul, V3.neg_dot,
          ← V3.sqLen_eq_dot, hn]; module
    unfold Line.contains
    rw [hz, sub_self]
    simp [V3.sqLen]; positivity
  have c12 := fun x => onAxis_contains (o := o) hd h1 x eps he
  have c21 := fun x => onAxis_contains (o := o) hd h2 x eps he
  unfold parallelOverlap
  simp only [hcont, not_true_eq_false, if_false, c12, c21]
  by_cases p1 : ((min a1 b1 - eps < a2 ∧ a2 < max a1 b1 + eps) ∧
      (min a1 b1 - eps < b2 ∧ b2 < max a1 b1 + eps))
  · left
    refine ⟨a2, b2, by rw [if_pos p1], ?_⟩
    exact overlap1_case1 he h1 h2 p1
  rw [if_neg p1]
  by_cases p2 : ((min a2 b2 - eps < a1 ∧ a1 < max a2 b2 + eps) ∧
      (min a2 b2 - eps < b1 ∧ b1 < max a2 b2 + eps))
  · left
    refine ⟨a1, b1, by rw [if_pos p2], ?_⟩
    exact overlap1_case2 he h1 h2 p2
  rw [if_neg p2]
  by_cases p3 : ((min a1 b1 - eps < a2 ∧ a2 < max a1 b1 + eps) ∧
      (min a2 b2 - eps < a1 ∧ a1 < max a2 b2 + eps))
  · left
    refine ⟨a2, a1, by rw [if_pos p3], ?_⟩
    exact overlap1_case3 he h1 h2 p1 p2 p3
  rw [if_neg p3]
  by_cases p4 : ((min a1 b1 - eps < a2 ∧ a2 < max a1 b1 + eps) ∧
      (min a2 b2 - eps < b1 ∧ b1 < max a2 b2 + eps))
  · left
    refine ⟨a2, b1, by rw [if_pos p4], ?_⟩
    exact overlap1_case4 he h1 h2 p1 p2 p4
  rw [if_neg p4]
  by_cases p5 : ((min a1 b1 - eps < b2 ∧ b2 < max a1 b1 + eps) ∧
      (min a2 b2 - eps < a1 ∧ a1 < max a2 b2 + eps))
  · left
    refine ⟨b2, a1, by rw [if_pos p5], ?_⟩
    exact overlap1_case5 he h1 h2 p1 p2 p5
  rw [if_neg p5]
  by_cases p6 : ((min a1 b1 - eps < b2 ∧ b2 < max a1 b1 + eps) ∧
      (min a2 b2 - eps < b1 ∧ b1 < max a2 b2 + eps))
  · left
    refine ⟨b2, b1, by rw [if_pos p6], ?_⟩
    exact overlap1_case6 he h1 h2 p1 p2 p6
  rw [if_neg p6]
  right
  refine ⟨rfl, ?_⟩
  rcases lt_or_gt_of_ne h1 with h1 | h1 <;> rcases lt_or_gt_of_ne h2 with h2 | h2 <;> grind

/-! ## C51 Collinear segments intersect in their overlap -/

/-- All four end points are on one line. -/
def CollinearSegments (seg1 seg2 : Segment) : Prop :=
  ∃ o d, Spec.OnLine o d seg1.source ∧ Spec.OnLine o d seg1.target ∧
    Spec.OnLine o d seg2.source ∧ Spec.OnLine o d seg2.target

/-- Point of the segment. -/
def Segment.has (s : Segment) (p : V3) : Prop := Spec.OnSegment s.source s.target p

/-- Some point of the segment is closer than `eps`. -/
def Segment.near (s : Segment) (p : V3) (eps : ℝ) : Prop :=
  ∃ q, Spec.OnSegment s.source s.target q ∧ Spec.dist p q < eps

/-- Coordinates of two collinear segments on a common axis of unit direction. -/
theorem CollinearSegments.axis {seg1 seg2 : Segment} (h : CollinearSegments seg1 seg2)
    (h1 : seg1.source ≠ seg1.target) :
    ∃ o d a1 b1 a2 b2, Spec.IsUnit d ∧ seg1 = ⟨onAxis o d a1, onAxis o d b1⟩ ∧
      seg2 = ⟨onAxis o d a2, onAxis o d b2⟩ := by
  obtain ⟨o, d, l1, l2, l3, l4⟩ := h
  rw [Spec.onLine_iff] at l1 l2 l3 l4
  obtain ⟨t1, e1⟩ := l1
  obtain ⟨t2, e2⟩ := l2
  obtain ⟨t3, e3⟩ := l3
  obtain ⟨t4, e4⟩ := l4
  have hd : d ≠ 0 := by
    rintro rfl
    apply h1
    rw [e1, e2]; simp
  obtain ⟨u, s, _, hu, hs, hv⟩ := exists_direction hd
  refine ⟨o, u, t1 * s, t2 * s, t3 * s, t4 * s, hu, ?_, ?_⟩
  · ext1
    · rw [e1, hv]; unfold onAxis; module
    · rw [e2, hv]; unfold onAxis; module
  · ext1
    · rw [e3, hv]; unfold onAxis; module
    · rw [e4, hv]; unfold onAxis; module

theorem intersect_axis (K : Kernel) {o d : V3} (hd : Spec.IsUnit d) {a1 b1 a2 b2 eps : ℝ}
    (h1 : a1 ≠ b1) (h2 : a2 ≠ b2) (he : 0 < eps) :
    (∃ u v, intersectSegmentSegment K ⟨onAxis o d a1, onAxis o d b1⟩
        ⟨onAxis o d a2, onAxis o d b2⟩ eps
        = .val (.segment ⟨onAxis o d u, onAxis o d v⟩) ∧ Overlap1 a1 b1 a2 b2 eps u v) ∨
    (intersectSegmentSegment K ⟨onAxis o d a1, onAxis o d b1⟩ ⟨onAxis o d a2, onAxis o d b2⟩ eps
        = fragmentIntersection K ⟨onAxis o d a1, onAxis o d b1⟩ ⟨onAxis o d a2, onAxis o d b2⟩ eps ∧
      (max a1 b1 + eps ≤ min a2 b2 ∨ max a2 b2 + eps ≤ min a1 b1)) := by
  have k1 : ∃ e, mkDirection (onAxis o d b1 - onAxis o d a1) = .val e ∧ (e = d ∨ e = -d) := by
    rcases onAxis_direction (o := o) hd h1 with h | h
    · exact ⟨_, h, .inl rfl⟩
    · exact ⟨_, h, .inr rfl⟩
  have k2 : ∃ e, mkDirection (onAxis o d b2 - onAxis o d a2) = .val e ∧ (e = d ∨ e = -d) := by
    rcases onAxis_direction (o := o) hd h2 with h | h
    · exact ⟨_, h, .inl rfl⟩
    · exact ⟨_, h, .inr rfl⟩
  obtain ⟨e1, m1, q1⟩ := k1
  obtain ⟨e2, m2, q2⟩ := k2
  have hl : (⟨onAxis o d a1, onAxis o d b1⟩ : Segment).supportingLine
      = .val ⟨onAxis o d a1, e1⟩ := by
    unfold Segment.supportingLine Segment.direction
    simp only [m1, Outcome.val_bind, Outcome.pure_eq]
  have hpar := gpIsParallel_same hd q1 q2
  have hval : intersectSegmentSegment K ⟨onAxis o d a1, onAxis o d b1⟩
      ⟨onAxis o d a2, onAxis o d b2⟩ eps =
      (match parallelOverlap ⟨onAxis o d a1, onAxis o d b1⟩ ⟨onAxis o d a2, onAxis o d b2⟩
        ⟨onAxis o d a1, e1⟩ eps with
      | some r => .val r
      | none => fragmentIntersection K ⟨onAxis o d a1, onAxis o d b1⟩
          ⟨onAxis o d a2, onAxis o d b2⟩ eps) := by
    unfold intersectSegmentSegment
    simp only [m1, m2, Outcome.val_bind]
    rw [if_pos hpar, hl]
    simp only [Outcome.val_bind]
    rfl
  rw [hval]
  rcases parallelOverlap_axis hd h1 h2 he hl with ⟨u, v, hr, ho⟩ | ⟨hr, ho⟩
  · left; exact ⟨u, v, by rw [hr], ho⟩
  · right; exact ⟨by rw [hr], ho⟩

/-- Collinear segments closer than the tolerance: the result is a segment which contains all common
points of the two, and all of whose points are closer than the tolerance to both. -/
theorem C51_overlap_partial (K : Kernel) (seg1 seg2 : Segment) (eps : ℝ)
    (h1 : seg1.source ≠ seg1.target) (h2 : seg2.source ≠ seg2.target)
    (hc : CollinearSegments seg1 seg2) (he : 0 < eps)
    (hnear : ∃ p, Segment.has seg1 p ∧ Segment.near seg2 p eps) :
    ∃ s, intersectSegmentSegment K seg1 seg2 eps = .val (.segment s) ∧
      (∀ p, Segment.has seg1 p → Segment.has seg2 p → Segment.has s p) ∧
      (∀ p, Segment.has s p → Segment.near seg1 p eps ∧ Segment.near seg2 p eps) := by
  obtain ⟨o, d, a1, b1, a2, b2, hd, rfl, rfl⟩ := hc.axis h1
  have n1 : a1 ≠ b1 := by rintro rfl; exact h1 rfl
  have n2 : a2 ≠ b2 := by rintro rfl; exact h2 rfl
  unfold Segment.has Segment.near at *
  rcases intersect_axis K hd n1 n2 he with ⟨u, v, hr, ho⟩ | ⟨_, ho⟩
  · refine ⟨_, hr, ?_, ?_⟩
    · intro p hp1 hp2
      obtain ⟨x, x0, x1, rfl⟩ := (onAxis_segment _ _ _).1 hp1
      obtain ⟨y0, y1⟩ := (onAxis_onSegment hd _ _ _).1 hp2
      exact (onAxis_onSegment hd _ _ _).2 (ho.covers x x0 x1 y0 y1)
    · intro p hp
      obtain ⟨x, x0, x1, rfl⟩ := (onAxis_segment _ _ _).1 hp
      simp only
      rw [onAxis_near hd _ _ _ _ he, onAxis_near hd _ _ _ _ he]
      obtain ⟨k1, k2⟩ := ho.near1
      obtain ⟨k3, k4⟩ := ho.near2
      refine ⟨⟨?_, ?_⟩, ?_, ?_⟩ <;> linarith
  · exfalso
    obtain ⟨p, hp, hn⟩ := hnear
    obtain ⟨x, x0, x1, rfl⟩ := (onAxis_segment _ _ _).1 hp
    obtain ⟨y0, y1⟩ := (onAxis_near hd _ _ _ _ he).1 hn
    rcases ho with ho | ho <;> linarith

/-- If, in addition, no end point of one segment is close to but different from an end point of the
other one, the returned segment is exactly the common part; if they touch in an end point it is a
segment of zero length. -/
theorem C51_exact_overlap_partial (K : Kernel) (seg1 seg2 : Segment) (eps : ℝ)
    (h1 : seg1.source ≠ seg1.target) (h2 : seg2.source ≠ seg2.target)
    (hc : CollinearSegments seg1 seg2) (he : 0 < eps)
    (hnear : ∃ p, Segment.has seg1 p ∧ Segment.near seg2 p eps)
    (hsep : ∀ p ∈ [seg1.source, seg1.target], ∀ q ∈ [seg2.source, seg2.target],
      p = q ∨ eps ≤ Spec.dist p q) :
    ∃ s, intersectSegmentSegment K seg1 seg2 eps = .val (.segment s) ∧
      ∀ p, Segment.has s p ↔ Segment.has seg1 p ∧ Segment.has seg2 p := by
  obtain ⟨o, d, a1, b1, a2, b2, hd, rfl, rfl⟩ := hc.axis h1
  have n1 : a1 ≠ b1 := by rintro rfl; exact h1 rfl
  have n2 : a2 ≠ b2 := by rintro rfl; exact h2 rfl
  unfold Segment.has Segment.near at *
  have hs : ∀ x ∈ [a1, b1], ∀ y ∈ [a2, b2], x = y ∨ eps ≤ |x - y| := by
    intro x hx y hy
    have := hsep (onAxis o d x) (by
      simp only [List.mem_cons, List.not_mem_nil, or_false] at hx ⊢
      rcases hx with rfl | rfl <;> simp) (onAxis o d y) (by
      simp only [List.mem_cons, List.not_mem_nil, or_false] at hy ⊢
      rcases hy with rfl | rfl <;> simp)
    rw [onAxis_dist hd] at this
    rcases this with h | h
    · exact .inl (onAxis_inj hd h)
    · exact .inr h
  rcases intersect_axis K hd n1 n2 he with ⟨u, v, hr, ho⟩ | ⟨_, ho⟩
  · refine ⟨_, hr, ?_⟩
    obtain ⟨k1, k2⟩ := ho.exact_ hs
    intro p
    constructor
    · intro hp
      obtain ⟨x, x0, x1, rfl⟩ := (onAxis_segment _ _ _).1 hp
      simp only
      rw [onAxis_onSegment hd, onAxis_onSegment hd]
      rw [k1] at x0
      rw [k2] at x1
      exact ⟨⟨le_trans (le_max_left _ _) x0, le_trans x1 (min_le_left _ _)⟩,
        le_trans (le_max_right _ _) x0, le_trans x1 (min_le_right _ _)⟩
    · rintro ⟨hp1, hp2⟩
      obtain ⟨x, x0, x1, rfl⟩ := (onAxis_segment _ _ _).1 hp1
      obtain ⟨y0, y1⟩ := (onAxis_onSegment hd _ _ _).1 hp2
      exact (onAxis_onSegment hd _ _ _).2 (ho.covers x x0 x1 y0 y1)
  · exfalso
    obtain ⟨p, hp, hn⟩ := hnear
    obtain ⟨x, x0, x1, rfl⟩ := (onAxis_segment _ _ _).1 hp
    obtain ⟨y0, y1⟩ := (onAxis_near hd _ _ _ _ he).1 hn
    rcases ho with ho | ho <;> linarith

/-- Collinear segments whose distance is not below the tolerance have an empty intersection, if the
geometry kernel leaves the two edges alone. -/
theorem C51_disjoint_partial (K : Kernel) (seg1 seg2 : Segment) (eps : ℝ)
    (h1 : seg1.source ≠ seg1.target) (h2 : seg2.source ≠ seg2.target)
    (hc : CollinearSegments seg1 seg2) (he : 0 < eps)
    (hfar : ∀ p, Segment.has seg1 p → ¬ Segment.near seg2 p eps)
    (hk : (K.fragmentEdges seg1 seg2 (0.1 * eps)).length = 2) :
    intersectSegmentSegment K seg1 seg2 eps = .val .empty := by
  obtain ⟨o, d, a1, b1, a2, b2, hd, rfl, rfl⟩ := hc.axis h1
  have n1 : a1 ≠ b1 := by rintro rfl; exact h1 rfl
  have n2 : a2 ≠ b2 := by rintro rfl; exact h2 rfl
  have hend : ∀ x, min a1 b1 ≤ x → x ≤ max a1 b1 → ¬ (min a2 b2 - eps < x ∧ x < max a2 b2 + eps) := by
    intro x x0 x1 hx
    exact hfar (onAxis o d x) ((onAxis_onSegment hd _ _ _).2 ⟨x0, x1⟩)
      ((onAxis_near hd _ _ _ _ he).2 hx)
  have ha := hend a1 (min_le_left _ _) (le_max_left _ _)
  have hb := hend b1 (min_le_right _ _) (le_max_right _ _)
  rcases intersect_axis K hd n1 n2 he with ⟨u, v, _, ho⟩ | ⟨hr, ho⟩
  · exfalso
    obtain ⟨k1, k2⟩ := ho.meets
    have hm1 : min a1 b1 ≤ max a1 b1 := min_le_max
    have hm2 : min a2 b2 ≤ max a2 b2 := min_le_max
    rcases lt_or_ge (min a2 b2 - eps) (min a1 b1) with h | h
    · exact hend _ le_rfl hm1 ⟨h, by linarith⟩
    · rcases lt_or_ge (max a1 b1) (max a2 b2 + eps) with h' | h'
      · exact hend _ hm1 le_rfl ⟨k1, h'⟩
      · exact hend (min a2 b2) (by linarith) (by linarith) ⟨by linarith, by linarith⟩
  · rw [hr]
    have neq : ∀ x y, (x = a1 ∨ x = b1) → (y = a2 ∨ y = b2) →
        ¬ pointIsEqual (onAxis o d x) (onAxis o d y) eps := by
      intro x y hx hy hxy
      unfold pointIsEqual at hxy
      rw [lt_sq_iff he, ← Spec.dist_eq_len, onAxis_dist hd, abs_lt] at hxy
      have e1 := min_le_left a1 b1
      have e2 := min_le_right a1 b1
      have e3 := le_max_left a1 b1
      have e4 := le_max_right a1 b1
      have e5 := min_le_left a2 b2
      have e6 := min_le_right a2 b2
      have e7 := le_max_left a2 b2
      have e8 := le_max_right a2 b2
      rcases hx with rfl | rfl <;> rcases hy with rfl | rfl <;> rcases ho with ho | ho <;> linarith
    unfold fragmentIntersection
    simp only
    rw [if_neg (by rw [hk]; omega), if_neg (neq _ _ (.inl rfl) (.inl rfl)),
      if_neg (neq _ _ (.inl rfl) (.inr rfl)), if_neg (neq _ _ (.inr rfl) (.inl rfl)),
      if_neg (neq _ _ (.inr rfl) (.inr rfl))]

/-- The full claim, for segments whose end points are equal or not closer than the tolerance and a
geometry kernel that does not split disjoint edges: the common part of collinear segments is reported
as a segment if it has more than one point, as a point if it is a single point and as empty if there
is none within the tolerance. -/
def C51_full : Prop := ∀ (K : Kernel) (seg1 seg2 : Segment) (eps : ℝ),
  seg1.source ≠ seg1.target → seg2.source ≠ seg2.target → CollinearSegments seg1 seg2 → 0 < eps →
  (∀ p ∈ [seg1.source, seg1.target], ∀ q ∈ [seg2.source, seg2.target],
    p = q ∨ eps ≤ Spec.dist p q) →
  ((∃ p q, p ≠ q ∧ Segment.has seg1 p ∧ Segment.has seg2 p ∧ Segment.has seg1 q ∧ Segment.has seg2 q) →
    ∃ s, intersectSegmentSegment K seg1 seg2 eps = .val (.segment s) ∧
      ∀ p, Segment.has s p ↔ Segment.has seg1 p ∧ Segment.has seg2 p) ∧
  (∀ c, (∀ p, (Segment.has seg1 p ∧ Segment.has seg2 p) ↔ p = c) →
    intersectSegmentSegment K seg1 seg2 eps = .val (.point c)) ∧
  ((∀ p, Segment.has seg1 p → ¬ Segment.near seg2 p eps) →
    (K.fragmentEdges seg1 seg2 (0.1 * eps)).length = 2 →
    intersectSegmentSegment K seg1 seg2 eps = .val .empty)

/-- Segments touching in an end point give a segment of zero length, not a point. -/
theorem C51_disproof : ¬ C51_full := by
  intro h
  have hu : Spec.IsUnit ⟨1, 0, 0⟩ := by norm_num [Spec.IsUnit]
  set o : V3 := ⟨0, 0, 0⟩ with ho
  set d : V3 := ⟨1, 0, 0⟩ with hd
  let K : Kernel := ⟨fun _ _ _ => none, fun _ _ => none, fun _ _ _ => []⟩
  have n1 : onAxis o d 0 ≠ onAxis o d 1 := fun e => by have := onAxis_inj hu e; norm_num at this
  have n2 : onAxis o d 1 ≠ onAxis o d 2 := fun e => by have := onAxis_inj hu e; norm_num at this
  have hc : CollinearSegments ⟨onAxis o d 0, onAxis o d 1⟩ ⟨onAxis o d 1, onAxis o d 2⟩ :=
    ⟨o, d, onAxis_onLine _ _ _, onAxis_onLine _ _ _, onAxis_onLine _ _ _, onAxis_onLine _ _ _⟩
  have hsep : ∀ p ∈ [onAxis o d 0, onAxis o d 1], ∀ q ∈ [onAxis o d 1, onAxis o d 2],
      p = q ∨ (1 / 10 : ℝ) ≤ Spec.dist p q := by
    intro p hp q hq
    simp only [List.mem_cons, List.not_mem_nil, or_false] at hp hq
    rcases hp with rfl | rfl <;> rcases hq with rfl | rfl
    · right; rw [onAxis_dist hu]; norm_num
    · right; rw [onAxis_dist hu]; norm_num
    · left; rfl
    · right; rw [onAxis_dist hu]; norm_num
  have hone : Segment.has ⟨onAxis o d 0, onAxis o d 1⟩ (onAxis o d 1) := by
    unfold Segment.has; rw [onAxis_onSegment hu]; norm_num
  obtain ⟨s, hs, _⟩ := C51_exact_overlap_partial K ⟨onAxis o d 0, onAxis o d 1⟩
    ⟨onAxis o d 1, onAxis o d 2⟩ (1 / 10) n1 n2 hc (by norm_num)
    ⟨onAxis o d 1, hone, by
      unfold Segment.near; rw [onAxis_near hu _ _ _ _ (by norm_num)]; norm_num⟩ hsep
  have := (h K ⟨onAxis o d 0, onAxis o d 1⟩ ⟨onAxis o d 1, onAxis o d 2⟩ (1 / 10) n1 n2 hc
    (by norm_num) hsep).2.1 (onAxis o d 1) (by
      intro p
      constructor
      · rintro ⟨hp1, hp2⟩
        obtain ⟨x, x0, x1, rfl⟩ := (onAxis_segment _ _ _).1 hp1
        obtain ⟨y0, y1⟩ := (onAxis_onSegment hu _ _ _).1 hp2
        norm_num at x0 x1 y0 y1
        rw [le_antisymm x1 y0]
      · rintro rfl
        refine ⟨hone, ?_⟩
        unfold Segment.has; rw [onAxis_onSegment hu]; norm_num)
  rw [hs] at this
  cases this

/-- The hypotheses are met by segments which overlap, in opposite directions. -/
example (K : Kernel) : ∃ s, intersectSegmentSegment K ⟨⟨0, 0, 0⟩, ⟨2, 0, 0⟩⟩ ⟨⟨3, 0, 0⟩, ⟨1, 0, 0⟩⟩
      (1 / 10) = .val (.segment s) ∧
    ∀ p, Segment.has s p ↔ Segment.has ⟨⟨0, 0, 0⟩, ⟨2, 0, 0⟩⟩ p ∧
      Segment.has ⟨⟨3, 0, 0⟩, ⟨1, 0, 0⟩⟩ p := by
  have e : ∀ t : ℝ, (⟨t, 0, 0⟩ : V3) = onAxis ⟨0, 0, 0⟩ ⟨1, 0, 0⟩ t := by
    intro t; ext <;> simp [onAxis]
  have hu : Spec.IsUnit ⟨1, 0, 0⟩ := by norm_num [Spec.IsUnit]
  have h2 : ∀ t, Spec.OnLine (⟨0, 0, 0⟩ : V3) ⟨1, 0, 0⟩ ⟨t, 0, 0⟩ := by
    intro t; rw [e t]; exact onAxis_onLine _ _ _
  refine C51_exact_overlap_partial K ⟨⟨0, 0, 0⟩, ⟨2, 0, 0⟩⟩ ⟨⟨3, 0, 0⟩, ⟨1, 0, 0⟩⟩ (1 / 10) ?_ ?_
    ⟨⟨0, 0, 0⟩, ⟨1, 0, 0⟩, h2 _, h2 _, h2 _, h2 _⟩ (by norm_num) ?_ ?_
  · intro h; have := congrArg V3.x h; norm_num at this
  · intro h; have := congrArg V3.x h; norm_num at this
  · refine ⟨⟨2, 0, 0⟩, ⟨1, by norm_num, le_rfl, by norm_num, by norm_num, by norm_num⟩, ⟨2, 0, 0⟩,
      ⟨1 / 2, by norm_num, by norm_num, by norm_num, by norm_num, by norm_num⟩, ?_⟩
    norm_num [Spec.dist]
  · intro p hp q hq
    simp only [List.mem_cons, List.not_mem_nil, or_false] at hp hq
    rcases hp with rfl | rfl <;> rcases hq with rfl | rfl <;> right <;> unfold Spec.dist <;>
      rw [Real.le_sqrt (by norm_num)] <;> norm_num

/-! ## C59 Intersections of segments that are not parallel -/

/-- Whatever the geometry kernel returns: a point reported for two segments is closer than the
tolerance to both of them. -/
theorem C59_point_near_both (K : Kernel) (seg1 seg2 : Segment) (eps : ℝ) (p : V3)
    (h1 : seg1.source ≠ seg1.target) (h2 : seg2.source ≠ seg2.target) (he : 0 < eps)
    (hr : intersectSegmentSegment K seg1 seg2 eps = .val (.point p)) :
    Segment.near seg1 p eps ∧ Segment.near seg2 p eps := by
  have self : ∀ (s : Segment) (q : V3), Segment.has s q → Segment.near s q eps := by
    intro s q hq
    refine ⟨q, hq, ?_⟩
    rw [Spec.dist_eq_len, sub_self, V3.len_eq_zero.2 rfl]; exact he
  have hsrc : ∀ s : Segment, Segment.has s s.source := fun s =>
    (Spec.onSegment_iff _ _ _).2 ⟨0, le_rfl, zero_le_one, by module⟩
  have htgt : ∀ s : Segment, Segment.has s s.target := fun s =>
    (Spec.onSegment_iff _ _ _).2 ⟨1, zero_le_one, le_rfl, by module⟩
  have eqn : ∀ (s : Segment) (q r : V3), Segment.has s r → pointIsEqual q r eps →
      Segment.near s q eps := by
    intro s q r hr hq
    refine ⟨r, hr, ?_⟩
    unfold pointIsEqual at hq
    rw [lt_sq_iff he] at hq
    rw [Spec.dist_comm, Spec.dist_eq_len]; exact hq
  have frag : fragmentIntersection K seg1 seg2 eps = .val (.point p) →
      Segment.near seg1 p eps ∧ Segment.near seg2 p eps := by
    intro h
    unfold fragmentIntersection at h
    simp only at h
    split at h
    · split at h
      · rename_i q hf
        have := List.find?_some hf
        simp only [decide_eq_true_eq] at this
        simp only [Outcome.val.injEq, IsGeom.point.injEq] at h
        subst h
        obtain ⟨c1, c2⟩ := this
        exact ⟨(C08_contains_iff_within_eps _ _ _ h1 he).1 c1,
          (C08_contains_iff_within_eps _ _ _ h2 he).1 c2⟩
      · cases h
    · split at h
      · rename_i hq
        simp only [Outcome.val.injEq, IsGeom.point.injEq] at h
        subst h
        exact ⟨self _ _ (hsrc _), eqn _ _ _ (hsrc _) hq⟩
      · split at h
        · rename_i hq
          simp only [Outcome.val.injEq, IsGeom.point.injEq] at h
          subst h
          exact ⟨self _ _ (hsrc _), eqn _ _ _ (htgt _) hq⟩
        · split at h
          · rename_i hq
            simp only [Outcome.val.injEq, IsGeom.point.injEq] at h
            subst h
            exact ⟨self _ _ (htgt _), eqn _ _ _ (hsrc _) hq⟩
          · split at h
            · rename_i hq
              simp only [Outcome.val.injEq, IsGeom.point.injEq] at h
              subst h
              exact ⟨self _ _ (htgt _), eqn _ _ _ (htgt _) hq⟩
            · cases h
  unfold intersectSegmentSegment at hr
  obtain ⟨e1, _, hr⟩ := Outcome.bind_eq_val.1 hr
  obtain ⟨e2, _, hr⟩ := Outcome.bind_eq_val.1 hr
  split at hr
  · obtain ⟨l, _, hr⟩ := Outcome.bind_eq_val.1 hr
    split at hr
    · rename_i r ho
      simp only [Outcome.pure_eq, Outcome.val.injEq] at hr
      subst hr
      unfold parallelOverlap at ho
      simp only at ho
      split_ifs at ho <;> exact absurd ho (by simp)
    · exact frag hr
  · exact frag hr

/-- Fragmentation of two edges by an exact geometry kernel: if the edges have a single common point
which is not an end point of both, at least one of them is split (three or four edges result), and the
common point is a vertex; otherwise they are left alone. -/
def ExactFragments (K : Kernel) (seg1 seg2 : Segment) (eps : ℝ) : Prop :=
  let edges := K.fragmentEdges seg1 seg2 (0.1 * eps)
  let ends (s : Segment) (p : V3) := p = s.source ∨ p = s.target
  (∀ c, (∀ p, (Segment.has seg1 p ∧ Segment.has seg2 p) ↔ p = c) →
    (¬ (ends seg1 c ∧ ends seg2 c) →
      (edges.length = 3 ∨ edges.length = 4) ∧ ∃ vs ∈ edges, c ∈ vs) ∧
    (ends seg1 c ∧ ends seg2 c → edges.length = 2)) ∧
  ((∀ p, ¬ (Segment.has seg1 p ∧ Segment.has seg2 p)) → edges.length = 2)

open Classical in
/-- Two segments of different directions with a common point: the result is a point closer than the
tolerance to both. -/
theorem C59_crossing_found (K : Kernel) (seg1 seg2 : Segment) (eps : ℝ) (d1 d2 c : V3)
    (m1 : mkDirection (seg1.target - seg1.source) = .val d1)
    (m2 : mkDirection (seg2.target - seg2.source) = .val d2)
    (hnp : ¬ gpIsParallel d1 d2 angular) (he : 0 < eps)
    (hK : ExactFragments K seg1 seg2 eps)
    (hc : ∀ p, (Segment.has seg1 p ∧ Segment.has seg2 p) ↔ p = c) :
    ∃ p, intersectSegmentSegment K seg1 seg2 eps = .val (.point p) ∧
      Segment.near seg1 p eps ∧ Segment.near seg2 p eps := by
  have h1 : seg1.source ≠ seg1.target := by
    intro e
    rw [← e, sub_self] at m1
    unfold mkDirection at m1
    rw [if_pos (V3.len_eq_zero.2 rfl)] at m1
    cases m1
  have h2 : seg2.source ≠ seg2.target := by
    intro e
    rw [← e, sub_self] at m2
    unfold mkDirection at m2
    rw [if_pos (V3.len_eq_zero.2 rfl)] at m2
    cases m2
  have hval : intersectSegmentSegment K seg1 seg2 eps = fragmentIntersection K seg1 seg2 eps := by
    unfold intersectSegmentSegment
    simp only [m1, m2, Outcome.val_bind]
    rw [if_neg hnp]
  suffices ∃ p, intersectSegmentSegment K seg1 seg2 eps = .val (.point p) by
    obtain ⟨p, hp⟩ := this
    exact ⟨p, hp, C59_point_near_both K seg1 seg2 eps p h1 h2 he hp⟩
  rw [hval]
  obtain ⟨hcc1, hcc2⟩ := (hc c).2 rfl
  obtain ⟨hA, hB⟩ := hK.1 c hc
  unfold fragmentIntersection
  simp only
  by_cases hends : (c = seg1.source ∨ c = seg1.target) ∧ (c = seg2.source ∨ c = seg2.target)
  · have hl := hB hends
    rw [if_neg (by rw [hl]; omega)]
    have heq : ∀ q : V3, pointIsEqual q q eps := by
      intro q; unfold pointIsEqual; rw [sub_self]; simp [V3.sqLen]; positivity
    obtain ⟨e1, e2⟩ := hends
    by_cases q1 : pointIsEqual seg1.source seg2.source eps
    · exact ⟨_, by rw [if_pos q1]⟩
    rw [if_neg q1]
    by_cases q2 : pointIsEqual seg1.source seg2.target eps
    · exact ⟨_, by rw [if_pos q2]⟩
    rw [if_neg q2]
    by_cases q3 : pointIsEqual seg1.target seg2.source eps
    · exact ⟨_, by rw [if_pos q3]⟩
    rw [if_neg q3]
    by_cases q4 : pointIsEqual seg1.target seg2.target eps
    · exact ⟨_, by rw [if_pos q4]⟩
    exfalso
    rcases e1 with e1 | e1 <;> rcases e2 with e2 | e2
    · apply q1; rw [← e1, ← e2]; exact heq _
    · apply q2; rw [← e1, ← e2]; exact heq _
    · apply q3; rw [← e1, ← e2]; exact heq _
    · apply q4; rw [← e1, ← e2]; exact heq _
  · obtain ⟨hl, vs, hvs, hcv⟩ := hA hends
    rw [if_pos hl]
    cases hf : (K.fragmentEdges seg1 seg2 (0.1 * eps)).flatten.find? fun p =>
        decide (seg1.contains p eps ∧ seg2.contains p eps) with
    | some p => exact ⟨p, by simp only [hf]⟩
    | none =>
      exfalso
      rw [List.find?_eq_none] at hf
      have := hf c (List.mem_flatten.2 ⟨vs, hvs, hcv⟩)
      simp only [decide_eq_true_eq] at this
      exact this ⟨C08_points_contained _ _ _ h1 he hcc1, C08_points_contained _ _ _ h2 he hcc2⟩

/-- Two segments of different directions which stay apart: the result is empty. -/
theorem C59_disjoint_empty (K : Kernel) (seg1 seg2 : Segment) (eps : ℝ) (d1 d2 : V3)
    (m1 : mkDirection (seg1.target - seg1.source) = .val d1)
    (m2 : mkDirection (seg2.target - seg2.source) = .val d2)
    (hnp : ¬ gpIsParallel d1 d2 angular) (he : 0 < eps)
    (hK : ExactFragments K seg1 seg2 eps)
    (hfar : ∀ p, Segment.has seg1 p → ¬ Segment.near seg2 p eps) :
    intersectSegmentSegment K seg1 seg2 eps = .val .empty := by
  have hval : intersectSegmentSegment K seg1 seg2 eps = fragmentIntersection K seg1 seg2 eps := by
    unfold intersectSegmentSegment
    simp only [m1, m2, Outcome.val_bind]
    rw [if_neg hnp]
  have hsrc : ∀ s : Segment, Segment.has s s.source := fun s =>
    (Spec.onSegment_iff _ _ _).2 ⟨0, le_rfl, zero_le_one, by module⟩
  have htgt : ∀ s : Segment, Segment.has s s.target := fun s =>
    (Spec.onSegment_iff _ _ _).2 ⟨1, zero_le_one, le_rfl, by module⟩
  have hl := hK.2 (by
    rintro p ⟨hp1, hp2⟩
    apply hfar p hp1
    refine ⟨p, hp2, ?_⟩
    rw [Spec.dist_eq_len, sub_self, V3.len_eq_zero.2 rfl]; exact he)
  have neq : ∀ p q, Segment.has seg1 p → Segment.has seg2 q → ¬ pointIsEqual p q eps := by
    intro p q hp hq h
    unfold pointIsEqual at h
    rw [lt_sq_iff he] at h
    exact hfar p hp ⟨q, hq, by rw [Spec.dist_comm, Spec.dist_eq_len]; exact h⟩
  rw [hval]
  unfold fragmentIntersection
  simp only
  rw [if_neg (by rw [hl]; omega), if_neg (neq _ _ (hsrc _) (hsrc _)), if_neg (neq _ _ (hsrc _) (htgt _)),
    if_neg (neq _ _ (htgt _) (hsrc _)), if_neg (neq _ _ (htgt _) (htgt _))]

/-- Two segments along the first two axes crossing in the origin, split into four edges. -/
example : ∃ (K : Kernel) (p : V3),
    intersectSegmentSegment K ⟨⟨-1, 0, 0⟩, ⟨1, 0, 0⟩⟩ ⟨⟨0, -1, 0⟩, ⟨0, 1, 0⟩⟩ (1 / 10)
      = .val (.point p) ∧
    Segment.near ⟨⟨-1, 0, 0⟩, ⟨1, 0, 0⟩⟩ p (1 / 10) ∧
    Segment.near ⟨⟨0, -1, 0⟩, ⟨0, 1, 0⟩⟩ p (1 / 10) := by
  let K : Kernel := ⟨fun _ _ _ => none, fun _ _ => none, fun s1 s2 _ =>
    [[s1.source, ⟨0, 0, 0⟩], [⟨0, 0, 0⟩, s1.target], [s2.source, ⟨0, 0, 0⟩], [⟨0, 0, 0⟩, s2.target]]⟩
  refine ⟨K, ?_⟩
  have hl : ∀ v : V3, v.sqLen = 4 → v.len = 2 := by
    intro v hv
    rw [V3.len, hv, show (4 : ℝ) = 2 * 2 by norm_num, Real.sqrt_mul_self (by norm_num)]
  have hc : ∀ p, (Segment.has ⟨⟨-1, 0, 0⟩, ⟨1, 0, 0⟩⟩ p ∧ Segment.has ⟨⟨0, -1, 0⟩, ⟨0, 1, 0⟩⟩ p) ↔
      p = ⟨0, 0, 0⟩ := by
    intro p
    constructor
    · rintro ⟨⟨t, _, _, hx, hy, hz⟩, ⟨u, _, _, hx', hy', hz'⟩⟩
      norm_num at hx hy hz hx' hy' hz'
      exact V3.ext hx' hy hz
    · rintro rfl
      exact ⟨⟨1 / 2, by norm_num, by norm_num, by norm_num, by norm_num, by norm_num⟩,
        ⟨1 / 2, by norm_num, by norm_num, by norm_num, by norm_num, by norm_num⟩⟩
  apply C59_crossing_found K _ _ _ ⟨1, 0, 0⟩ ⟨0, 1, 0⟩ ⟨0, 0, 0⟩ ?_ ?_ ?_ (by norm_num) ?_ hc
  · simp only [mkDirection]
    rw [hl _ (by norm_num [V3.sqLen]), if_neg (by norm_num)]
    norm_num [V3.sdiv]
  · simp only [mkDirection]
    rw [hl _ (by norm_num [V3.sqLen]), if_neg (by norm_num)]
    norm_num [V3.sdiv]
  · have := Real.two_le_pi
    unfold gpIsParallel gpAngle
    norm_num [V3.dot, angular]
    constructor <;> linarith
  · refine ⟨?_, ?_⟩
    · intro c hcc
      have : c = ⟨0, 0, 0⟩ := by
        have := (hcc c).2 rfl
        exact (hc c).1 this
      subst this
      refine ⟨fun _ => ⟨Or.inr rfl, _, List.mem_cons_self, by simp⟩, ?_⟩
      rintro ⟨h | h, _⟩ <;> exact absurd (congrArg V3.x h) (by norm_num)
    · intro h
      exact absurd ((hc ⟨0, 0, 0⟩).2 rfl) (h _)

/-- Two segments along the first axis and, one unit above it, along the second axis. -/
example : ∃ K : Kernel,
    intersectSegmentSegment K ⟨⟨-1, 0, 0⟩, ⟨1, 0, 0⟩⟩ ⟨⟨0, -1, 1⟩, ⟨0, 1, 1⟩⟩ (1 / 10)
      = .val .empty := by
  let K : Kernel := ⟨fun _ _ _ => none, fun _ _ => none, fun s1 s2 _ =>
    [[s1.source, s1.target], [s2.source, s2.target]]⟩
  refine ⟨K, ?_⟩
  have hl : ∀ v : V3, v.sqLen = 4 → v.len = 2 := by
    intro v hv
    rw [V3.len, hv, show (4 : ℝ) = 2 * 2 by norm_num, Real.sqrt_mul_self (by norm_num)]
  have hfar : ∀ p, Segment.has ⟨⟨-1, 0, 0⟩, ⟨1, 0, 0⟩⟩ p →
      ¬ Segment.near ⟨⟨0, -1, 1⟩, ⟨0, 1, 1⟩⟩ p (1 / 10) := by
    rintro p ⟨t, _, _, hx, hy, hz⟩ ⟨q, ⟨u, _, _, hx', hy', hz'⟩, hd⟩
    norm_num at hz hz'
    have : ¬ Spec.dist p q < 1 / 10 := by
      unfold Spec.dist
      rw [not_lt]
      apply Real.le_sqrt_of_sq_le
      rw [hz, hz']
      nlinarith [sq_nonneg (p.x - q.x), sq_nonneg (p.y - q.y)]
    first
      | exact this hd
      | exact this (by rw [Spec.dist_comm]; exact hd)
  apply C59_disjoint_empty K _ _ _ ⟨1, 0, 0⟩ ⟨0, 1, 0⟩ ?_ ?_ ?_ (by norm_num) ?_ hfar
  · simp only [mkDirection]
    rw [hl _ (by norm_num [V3.sqLen]), if_neg (by norm_num)]
    norm_num [V3.sdiv]
  · simp only [mkDirection]
    rw [hl _ (by norm_num [V3.sqLen]), if_neg (by norm_num)]
    norm_num [V3.sdiv]
  · have := Real.two_le_pi
    unfold gpIsParallel gpAngle
    norm_num [V3.dot, angular]
    constructor <;> linarith
  · refine ⟨?_, fun _ => rfl⟩
    intro c hcc
    obtain ⟨h1, h2⟩ := (hcc c).2 rfl
    exact absurd ⟨c, h2, by rw [Spec.dist_eq_len, sub_self, V3.len_eq_zero.2 rfl]; norm_num⟩
      (hfar c h1)

open Classical in
/-- Whatever the kernel does, intersecting two segments of positive length either yields a result
or raises an exception, and the latter only if the kernel cut the segments into three or four edges
none of whose ends lies on both segments. -/
theorem C59_outcomes (K : Kernel) (seg1 seg2 : Segment) (eps : ℝ)
    (h1 : seg1.source ≠ seg1.target) (h2 : seg2.source ≠ seg2.target) :
    (∃ g, intersectSegmentSegment K seg1 seg2 eps = .val g) ∨
      intersectSegmentSegment K seg1 seg2 eps = .thrown "Could not find intersection point" ∧
        (∀ es, K.fragmentEdges seg1 seg2 (0.1 * eps) = es →
          (es.length = 3 ∨ es.length = 4) ∧
          ∀ vs ∈ es, ∀ p ∈ vs, ¬ (seg1.contains p eps ∧ seg2.contains p eps)) := by
  have frag : (∃ g, fragmentIntersection K seg1 seg2 eps = .val g) ∨
      fragmentIntersection K seg1 seg2 eps = .thrown "Could not find intersection point" ∧
        (∀ es, K.fragmentEdges seg1 seg2 (0.1 * eps) = es →
          (es.length = 3 ∨ es.length = 4) ∧
          ∀ vs ∈ es, ∀ p ∈ vs, ¬ (seg1.contains p eps ∧ seg2.contains p eps)) := by
    unfold fragmentIntersection
    simp only
    split_ifs with c
    · cases hf : (K.fragmentEdges seg1 seg2 (0.1 * eps)).flatten.find? fun p =>
          decide (seg1.contains p eps ∧ seg2.contains p eps) with
      | some p => exact Or.inl ⟨_, rfl⟩
      | none =>
        refine Or.inr ⟨rfl, ?_⟩
        rintro es rfl
        refine ⟨c, fun vs hvs p hp => ?_⟩
        rw [List.find?_eq_none] at hf
        simpa only [decide_eq_true_eq] using hf p (List.mem_flatten.2 ⟨vs, hvs, hp⟩)
    all_goals exact Or.inl ⟨_, rfl⟩
  unfold intersectSegmentSegment
  simp only [mkDirection_of_ne (sub_ne_zero.2 h1.symm), mkDirection_of_ne (sub_ne_zero.2 h2.symm),
    Outcome.val_bind]
  split_ifs with hp
  · simp only [Segment.supportingLine, Segment.direction, mkDirection_of_ne (sub_ne_zero.2 h1.symm),
      Outcome.val_bind, Outcome.pure_eq]
    cases parallelOverlap seg1 seg2 ⟨seg1.source, _⟩ eps with
    | some r => exact Or.inl ⟨_, rfl⟩
    | none => exact frag
  · exact frag

/-- Two segments one unit apart, cut by a kernel into three edges whose ends are not on the second one. -/
example : (⟨⟨-1, 0, 0⟩, ⟨1, 0, 0⟩⟩ : Segment).source ≠ (⟨⟨-1, 0, 0⟩, ⟨1, 0, 0⟩⟩ : Segment).target ∧
    ∃ K : Kernel, ∀ vs ∈ K.fragmentEdges ⟨⟨-1, 0, 0⟩, ⟨1, 0, 0⟩⟩ ⟨⟨0, -1, 1⟩, ⟨0, 1, 1⟩⟩ (0.1 * 0.1),
      ∀ p ∈ vs, p.z = 0 := by
  refine ⟨fun h => absurd (congrArg V3.x h) (by norm_num),
    ⟨fun _ _ _ => none, fun _ _ => none, fun _ _ _ => [[], [], [⟨0, 0, 0⟩]]⟩, ?_⟩
  simp

end Props
