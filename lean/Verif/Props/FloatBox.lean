import Verif.Lemmas.FloatError
import Verif.Model.Float.Box
import Verif.Props.Box
import Verif.Props.FloatVector

/-!
# C89, C90 Boxes in double precision
-/

namespace Props
open Verif Frackit Spec

/-- The bounds of the box are ordered. -/
def OrderedBox (b : Box) : Prop := b.xMin ≤ b.xMax ∧ b.yMin ≤ b.yMax ∧ b.zMin ≤ b.zMax

/-- The length of the diagonal of the box. -/
noncomputable def diagonal (b : Box) : ℝ := dist (Box.lo b) (Box.hi b)

/-- The coordinates of the box are numbers of type `double`. -/
def DoubleBox (b : Box) : Prop := DoubleCoordinates (Box.lo b) ∧ DoubleCoordinates (Box.hi b)

/-- The absolute values of the coordinates are at most `r`. -/
def BoxWithin (b : Box) (r : ℝ) : Prop :=
  |b.xMin| ≤ r ∧ |b.xMax| ≤ r ∧ |b.yMin| ≤ r ∧ |b.yMax| ≤ r ∧ |b.zMin| ≤ r ∧ |b.zMax| ≤ r

theorem rnd_error_num (x : ℝ) : |Fp.rnd x - x| ≤ 1 / 2 ^ 53 * |x| := rnd_error x

theorem sub_lt_self_fp {a eps : ℝ} (he : 1 / 2 ^ 52 * |a| < eps) : Fp.sub a eps < a := by
  have h := (abs_le.1 (rnd_error_num (a - eps))).2
  have h1 : |a - eps| ≤ |a| + |eps| := abs_sub a eps
  have hp0 : 0 ≤ 1 / 2 ^ 52 * |a| := mul_nonneg (by norm_num) (abs_nonneg a)
  have hp : 0 < eps := lt_of_le_of_lt hp0 he
  rw [abs_of_pos hp] at h1
  unfold Fp.sub
  have h2 : 1 / 2 ^ 53 * |a - eps| ≤ 1 / 2 ^ 53 * (|a| + eps) := mul_le_mul_of_nonneg_left h1 (by positivity)
  have h3 : 1 / 2 ^ 53 * (|a| + eps) < eps := by
    have : (1 : ℝ) / 2 ^ 52 * |a| = 2 * (1 / 2 ^ 53 * |a|) := by ring
    rw [mul_add]
    have : (1 : ℝ) / 2 ^ 53 * eps < 1 / 2 * eps := mul_lt_mul_of_pos_right (by norm_num) hp
    linarith
  linarith

theorem lt_add_self_fp {a eps : ℝ} (he : 1 / 2 ^ 52 * |a| < eps) : a < Fp.add a eps := by
  have h := sub_lt_self_fp (a := -a) (eps := eps) (by rwa [abs_neg])
  unfold Fp.sub at h
  rw [show -a - eps = -(a + eps) by ring, rnd_neg] at h
  unfold Fp.add
  linarith

theorem sub_ge_fp {a eps : ℝ} (hp : 0 ≤ eps) : a - eps - 1 / 2 ^ 53 * (|a| + eps) ≤ Fp.sub a eps := by
  have h := (abs_le.1 (rnd_error_num (a - eps))).1
  have h1 : |a - eps| ≤ |a| + |eps| := abs_sub a eps
  rw [abs_of_nonneg hp] at h1
  have h2 : 1 / 2 ^ 53 * |a - eps| ≤ 1 / 2 ^ 53 * (|a| + eps) := mul_le_mul_of_nonneg_left h1 (by positivity)
  unfold Fp.sub
  linarith

theorem add_le_fp {a eps : ℝ} (hp : 0 ≤ eps) : Fp.add a eps ≤ a + eps + 1 / 2 ^ 53 * (|a| + eps) := by
  have h := sub_ge_fp (a := -a) hp
  unfold Fp.sub at h
  rw [show -a - eps = -(a + eps) by ring, rnd_neg, abs_neg] at h
  unfold Fp.add
  linarith

theorem diagonal_eq (b : Box) :
    diagonal b = (⟨b.xMax - b.xMin, b.yMax - b.yMin, b.zMax - b.zMin⟩ : V3).len := by
  rw [diagonal, dist_eq_len, V3.len_sub_comm]
  rfl

/-- The default tolerance of a box is about 1e-7 times the diagonal. -/
theorem close_boxEps {b : Box} (hb : OrderedBox b) : Close 6 (Fp.boxEps b) (1 / 10 ^ 7 * diagonal b) := by
  obtain ⟨hx, hy, hz⟩ := hb
  have sq : ∀ {l h : ℝ}, l ≤ h → Close 2 (Fp.sub h l * Fp.sub h l) ((h - l) * (h - l)) := by
    intro l h hl
    have : Close 1 (Fp.sub h l) (h - l) := close_rnd (by linarith)
    exact this.mul this
  have h1 : Close (2 * 1) (⟨Fp.sub b.xMax b.xMin, Fp.sub b.yMax b.yMin, Fp.sub b.zMax b.zMin⟩ : V3).sqLen
      (⟨b.xMax - b.xMin, b.yMax - b.yMin, b.zMax - b.zMin⟩ : V3).sqLen :=
    ((sq hx).add (sq hy)).add (sq hz)
  have h2 : Close 1 (⟨Fp.sub b.xMax b.xMin, Fp.sub b.yMax b.yMin, Fp.sub b.zMax b.zMin⟩ : V3).len
      (⟨b.xMax - b.xMin, b.yMax - b.yMin, b.zMax - b.zMin⟩ : V3).len := h1.sqrt
  have h3 := (close_length _).trans h2
  rw [← diagonal_eq] at h3
  have h4 : Close 1 Fp.confusion (1 / 10 ^ 7) := close_rnd (by positivity)
  unfold Fp.boxEps Fp.mul
  exact (h4.mul h3).rnd

theorem diagonal_nonneg (b : Box) : 0 ≤ diagonal b := by
  rw [diagonal_eq]
  exact V3.len_nonneg _

theorem boxEps_bounds {b : Box} (hb : OrderedBox b) :
    0.99 / 10 ^ 7 * diagonal b ≤ Fp.boxEps b ∧ Fp.boxEps b ≤ 1.01 / 10 ^ 7 * diagonal b := by
  have h := (close_boxEps hb).abs_sub_le
  have h0 := diagonal_nonneg b
  have h4 := rho_pow_sub_one_le (show 6 ≤ 15 by norm_num)
  have h5 : rho ^ 6 - 1 ≤ 0.01 := h4.trans (by norm_num)
  have h6 := abs_le.1 (h.trans (mul_le_mul_of_nonneg_right h5 (by positivity)))
  constructor
  · have := h6.1
    norm_num at this ⊢
    linarith
  · have := h6.2
    norm_num at this ⊢
    linarith

/-! ## C89 Containment -/

/-- The full property: the points of a box are in the box. -/
def C89_full : Prop := ∀ (b : Box) (p : V3), DoubleBox b → DoubleCoordinates p →
  b.xMin < b.xMax → b.yMin < b.yMax → b.zMin < b.zMax → InBox (Box.lo b) (Box.hi b) p → Fp.boxContainsDefault b p

/-- **Points of a box.**  If the coordinates of the box are at most 1e8 times as large as its diagonal, the box
contains all of its points, including the boundary, with the default tolerance. -/
theorem C89_points_partial (b : Box) (p : V3) (hd : 0 < diagonal b) (hr : BoxWithin b (10 ^ 8 * diagonal b))
    (hp : InBox (Box.lo b) (Box.hi b) p) : Fp.boxContainsDefault b p := by
  obtain ⟨p1, p2, p3, p4, p5, p6⟩ := hp
  have hb : OrderedBox b := ⟨p1.trans p2, p3.trans p4, p5.trans p6⟩
  have he := (boxEps_bounds hb).1
  have key : ∀ a : ℝ, |a| ≤ 10 ^ 8 * diagonal b → 1 / 2 ^ 52 * |a| < Fp.boxEps b := by
    intro a ha
    have h1 : 1 / 2 ^ 52 * |a| ≤ 1 / 2 ^ 52 * (10 ^ 8 * diagonal b) := mul_le_mul_of_nonneg_left ha (by positivity)
    have h2 : 1 / 2 ^ 52 * (10 ^ 8 * diagonal b) < 0.99 / 10 ^ 7 * diagonal b := by
      rw [← mul_assoc]
      exact mul_lt_mul_of_pos_right (by norm_num) hd
    linarith
  obtain ⟨r1, r2, r3, r4, r5, r6⟩ := hr
  exact ⟨lt_of_lt_of_le (sub_lt_self_fp (key _ r1)) p1, lt_of_le_of_lt p2 (lt_add_self_fp (key _ r2)),
    lt_of_lt_of_le (sub_lt_self_fp (key _ r3)) p3, lt_of_le_of_lt p4 (lt_add_self_fp (key _ r4)),
    lt_of_lt_of_le (sub_lt_self_fp (key _ r5)) p5, lt_of_le_of_lt p6 (lt_add_self_fp (key _ r6))⟩

/-- **Points outside.**  Under the same condition, the points that are contained with the default tolerance exceed the
bounds by less than 2e-7 times the diagonal. -/
theorem C89_outside (b : Box) (p : V3) (hb : OrderedBox b) (hd : 0 < diagonal b)
    (hr : BoxWithin b (10 ^ 8 * diagonal b)) (h : Fp.boxContainsDefault b p) :
    InBox ⟨b.xMin - 2 / 10 ^ 7 * diagonal b, b.yMin - 2 / 10 ^ 7 * diagonal b, b.zMin - 2 / 10 ^ 7 * diagonal b⟩
      ⟨b.xMax + 2 / 10 ^ 7 * diagonal b, b.yMax + 2 / 10 ^ 7 * diagonal b, b.zMax + 2 / 10 ^ 7 * diagonal b⟩ p := by
  obtain ⟨he1, he2⟩ := boxEps_bounds hb
  have he : 0 ≤ Fp.boxEps b := le_trans (by positivity) he1
  have key : ∀ a : ℝ, |a| ≤ 10 ^ 8 * diagonal b →
      Fp.boxEps b + 1 / 2 ^ 53 * (|a| + Fp.boxEps b) ≤ 2 / 10 ^ 7 * diagonal b := by
    intro a ha
    have h1 : 1 / 2 ^ 53 * (|a| + Fp.boxEps b) ≤ 1 / 2 ^ 53 * (10 ^ 8 * diagonal b + 1.01 / 10 ^ 7 * diagonal b) :=
      mul_le_mul_of_nonneg_left (by linarith) (by positivity)
    have h2 : 1.01 / 10 ^ 7 * diagonal b + 1 / 2 ^ 53 * (10 ^ 8 * diagonal b + 1.01 / 10 ^ 7 * diagonal b)
        = (1.01 / 10 ^ 7 + 1 / 2 ^ 53 * (10 ^ 8 + 1.01 / 10 ^ 7)) * diagonal b := by ring
    have h3 : (1.01 / 10 ^ 7 + 1 / 2 ^ 53 * (10 ^ 8 + 1.01 / 10 ^ 7)) * diagonal b ≤ 2 / 10 ^ 7 * diagonal b :=
      mul_le_mul_of_nonneg_right (by norm_num) hd.le
    linarith
  obtain ⟨r1, r2, r3, r4, r5, r6⟩ := hr
  obtain ⟨c1, c2, c3, c4, c5, c6⟩ := h
  refine ⟨?_, ?_, ?_, ?_, ?_, ?_⟩ <;> simp only
  · linarith [sub_ge_fp (a := b.xMin) he, key _ r1]
  · linarith [add_le_fp (a := b.xMax) he, key _ r2]
  · linarith [sub_ge_fp (a := b.yMin) he, key _ r3]
  · linarith [add_le_fp (a := b.yMax) he, key _ r4]
  · linarith [sub_ge_fp (a := b.zMin) he, key _ r5]
  · linarith [add_le_fp (a := b.zMax) he, key _ r6]

theorem diagonal_ge {b : Box} (hx : 1 ≤ b.xMax - b.xMin) : 1 ≤ diagonal b := by
  rw [diagonal_eq]
  refine Real.le_sqrt_of_sq_le ?_
  unfold V3.sqLen
  simp only
  nlinarith [mul_self_nonneg (b.yMax - b.yMin), mul_self_nonneg (b.zMax - b.zMin)]

theorem diagonal_le {b : Box} (hb : OrderedBox b) (hx : b.xMax - b.xMin ≤ 1) (hy : b.yMax - b.yMin ≤ 1)
    (hz : b.zMax - b.zMin ≤ 1) : diagonal b ≤ 2 := by
  rw [diagonal_eq]
  obtain ⟨h1, h2, h3⟩ := hb
  refine Real.sqrt_le_iff.2 ⟨by norm_num, ?_⟩
  unfold V3.sqLen
  simp only
  nlinarith [sub_nonneg.2 h1, sub_nonneg.2 h2, sub_nonneg.2 h3]

/-- The corner (1e7, 0, 0) of a unit box is in the box. -/
example : Fp.boxContainsDefault ⟨10000000, 10000001, 0, 1, 0, 1⟩ ⟨10000000, 0, 0⟩ := by
  have hd : 1 ≤ diagonal ⟨10000000, 10000001, 0, 1, 0, 1⟩ := diagonal_ge (by norm_num)
  refine C89_points_partial _ _ (by linarith) ?_ ?_
  · refine ⟨?_, ?_, ?_, ?_, ?_, ?_⟩ <;> rw [abs_of_nonneg (by norm_num)] <;> norm_num <;> linarith
  · refine ⟨?_, ?_, ?_, ?_, ?_, ?_⟩ <;> norm_num [Box.lo, Box.hi]

/-- A point at the distance 1 is not in the box. -/
example : ¬ Fp.boxContainsDefault ⟨10000000, 10000001, 0, 1, 0, 1⟩ ⟨10000000, 0, 2⟩ := by
  have hb : OrderedBox ⟨10000000, 10000001, 0, 1, 0, 1⟩ := by refine ⟨?_, ?_, ?_⟩ <;> norm_num
  have hd : 1 ≤ diagonal ⟨10000000, 10000001, 0, 1, 0, 1⟩ := diagonal_ge (by norm_num)
  have hd' : diagonal ⟨10000000, 10000001, 0, 1, 0, 1⟩ ≤ 2 :=
    diagonal_le hb (by norm_num) (by norm_num) (by norm_num)
  intro h
  have := (C89_outside _ _ hb (by linarith) (by
    refine ⟨?_, ?_, ?_, ?_, ?_, ?_⟩ <;> rw [abs_of_nonneg (by norm_num)] <;> norm_num <;> linarith) h).2.2.2.2.2
  simp only at this
  norm_num at this
  linarith

/-- The unit box with lower corner (2⁴⁰, 0, 0). -/
def farBox : Box := ⟨2 ^ 40, 2 ^ 40 + 1, 0, 1, 0, 1⟩

/-- The unit box with upper corner (2⁴⁰, 1, 1). -/
def farNeighbour : Box := ⟨2 ^ 40 - 1, 2 ^ 40, 0, 1, 0, 1⟩

theorem ordered_farBox : OrderedBox farBox := by
  refine ⟨?_, ?_, ?_⟩ <;> norm_num [farBox]

theorem ordered_farNeighbour : OrderedBox farNeighbour := by
  refine ⟨?_, ?_, ?_⟩ <;> norm_num [farNeighbour]

theorem double_nat {m : ℕ} (h : m ≤ 2 ^ 53) : IsDouble (m : ℝ) := by
  have := isDouble_int (m := (m : ℤ)) (by rw [abs_of_nonneg (by positivity)]; exact_mod_cast h)
  exact_mod_cast this

theorem double_farBox : DoubleBox farBox := by
  have h0 : IsDouble 0 := by exact_mod_cast double_nat (m := 0) (by norm_num)
  have h1 : IsDouble 1 := by exact_mod_cast double_nat (m := 1) (by norm_num)
  have h2 : IsDouble (2 ^ 40) := by exact_mod_cast double_nat (m := 2 ^ 40) (by norm_num)
  have h3 : IsDouble (2 ^ 40 + 1) := by exact_mod_cast double_nat (m := 2 ^ 40 + 1) (by norm_num)
  exact ⟨⟨h2, h0, h0⟩, ⟨h3, h1, h1⟩⟩

theorem double_farNeighbour : DoubleBox farNeighbour := by
  have h0 : IsDouble 0 := by exact_mod_cast double_nat (m := 0) (by norm_num)
  have h1 : IsDouble 1 := by exact_mod_cast double_nat (m := 1) (by norm_num)
  have h2 : IsDouble (2 ^ 40) := by exact_mod_cast double_nat (m := 2 ^ 40) (by norm_num)
  have h3 : IsDouble (2 ^ 40 - 1) := by
    have := double_nat (m := 2 ^ 40 - 1) (by norm_num)
    norm_num at this ⊢
    exact this
  exact ⟨⟨h3, h0, h0⟩, ⟨h2, h1, h1⟩⟩

/-- The tolerance is lost when it is subtracted from a large number. -/
theorem sub_large {eps : ℝ} (h0 : 0 < eps) (h1 : eps < 1 / 10 ^ 5) : Fp.sub (2 ^ 40) eps = 2 ^ 40 := by
  unfold Fp.sub
  have hpos : (0 : ℝ) < 2 ^ 40 - eps := by
    have : (1 : ℝ) / 10 ^ 5 < 2 ^ 40 := by norm_num
    linarith
  refine rnd_eval (2 ^ 53) 13 ?_ ?_ ?_ ?_
  · norm_num
  · rw [abs_of_pos hpos]
    norm_num at h1 ⊢
    linarith
  · rw [abs_of_pos hpos]
    norm_num
    linarith
  · rw [abs_lt]
    push_cast
    norm_num at h1 ⊢
    constructor <;> linarith

/-- **The code violates the property**: a unit box at the coordinate 2⁴⁰ does not contain its corner, because the
tolerance is lost when it is subtracted from the coordinate and the comparison is strict. -/
theorem C89_disproof : ¬ C89_full := by
  intro h
  have hp : DoubleCoordinates ⟨2 ^ 40, 0, 0⟩ := double_farBox.1
  have h1 := h farBox ⟨2 ^ 40, 0, 0⟩ double_farBox hp (by norm_num [farBox]) (by norm_num [farBox])
    (by norm_num [farBox]) (by refine ⟨?_, ?_, ?_, ?_, ?_, ?_⟩ <;> norm_num [Box.lo, Box.hi, farBox])
  have hb := ordered_farBox
  have h2 := boxEps_bounds hb
  have h3 : 1 ≤ diagonal farBox := diagonal_ge (by norm_num [farBox])
  have h4 : diagonal farBox ≤ 2 := diagonal_le hb (by norm_num [farBox]) (by norm_num [farBox]) (by norm_num [farBox])
  have h5 : Fp.sub (2 ^ 40) (Fp.boxEps farBox) = 2 ^ 40 := by
    refine sub_large ?_ ?_
    · refine lt_of_lt_of_le ?_ h2.1
      positivity
    · refine lt_of_le_of_lt h2.2 ?_
      norm_num
      linarith
  have h6 := h1.1
  unfold Fp.boxContainsDefault Fp.boxContains at h1
  have h7 : (2 : ℝ) ^ 40 > Fp.sub (2 ^ 40) (Fp.boxEps farBox) := h1.1
  rw [h5] at h7
  exact lt_irrefl _ h7

/-! ### Centre and volume -/

theorem double_half {a : ℝ} (h : IsDouble a) : IsDouble (0.5 * a) := by
  obtain ⟨m, e, hm, rfl⟩ := h
  refine ⟨m, e - 1, hm, ?_⟩
  rw [zpow_sub_one₀ (by norm_num)]
  ring

theorem center_between {a b : ℝ} (ha : IsDouble a) (hb : IsDouble b) (h : a ≤ b) :
    a ≤ Fp.add a (Fp.mul 0.5 (Fp.sub b a)) ∧ Fp.add a (Fp.mul 0.5 (Fp.sub b a)) ≤ b := by
  have h0 : 0 ≤ Fp.sub b a := rnd_nonneg (by linarith)
  have h1 : Fp.mul 0.5 (Fp.sub b a) = 0.5 * Fp.sub b a := by
    unfold Fp.mul
    exact rnd_of_isDouble (double_half (isDouble_rnd _))
  rw [h1]
  unfold Fp.add
  constructor
  · refine le_rnd_of_le ha ?_
    norm_num
    linarith
  · refine rnd_le_of_le hb ?_
    have h2 := (abs_le.1 (rnd_error (b - a))).2
    rw [abs_of_nonneg (by linarith)] at h2
    have h3 : unitRoundoff * (b - a) ≤ 1 * (b - a) := by
      refine mul_le_mul_of_nonneg_right ?_ (by linarith)
      unfold unitRoundoff
      norm_num
    unfold Fp.sub
    norm_num
    linarith

/-- The centre of a box is in the box, without any tolerance. -/
theorem C89_center (b : Box) (hb : OrderedBox b) (hd : DoubleBox b) : InBox (Box.lo b) (Box.hi b) (Fp.boxCenter b) := by
  obtain ⟨hx, hy, hz⟩ := hb
  obtain ⟨⟨x1, y1, z1⟩, ⟨x2, y2, z2⟩⟩ := hd
  have cx := center_between x1 x2 hx
  have cy := center_between y1 y2 hy
  have cz := center_between z1 z2 hz
  exact ⟨cx.1, cx.2, cy.1, cy.2, cz.1, cz.2⟩

example : InBox (Box.lo farBox) (Box.hi farBox) (Fp.boxCenter farBox) := C89_center _ ordered_farBox double_farBox

theorem center_err {a b r : ℝ} (ha : |a| ≤ r) (hb : |b| ≤ r) :
    |Fp.add a (Fp.mul 0.5 (Fp.sub b a)) - (a + b) / 2| ≤ 1 / 2 ^ 50 * r := by
  have h1 : Err 1 (Fp.sub b a) (b - a) |b - a| := (Err.refl (b - a)).rnd
  have h2 : Err 2 (Fp.mul 0.5 (Fp.sub b a)) (0.5 * (b - a)) (|0.5| * |b - a|) := by
    have := ((Err.refl 0.5).mul h1).rnd
    exact this
  have h3 : Err 3 (Fp.add a (Fp.mul 0.5 (Fp.sub b a))) (a + 0.5 * (b - a)) (|a| + |0.5| * |b - a|) :=
    (((Err.refl a).mono (by norm_num) le_rfl).add h2).rnd
  have h4 : |a| + |(0.5 : ℝ)| * |b - a| ≤ 2 * r := by
    have := abs_sub b a
    rw [abs_of_pos (by norm_num : (0 : ℝ) < 0.5)]
    norm_num
    linarith
  have h5 := (h3.mono le_rfl h4).1
  have hr : 0 ≤ r := (abs_nonneg a).trans ha
  rw [show a + 0.5 * (b - a) = (a + b) / 2 by ring] at h5
  refine h5.trans ?_
  have h6 : rho ^ 3 - 1 ≤ 1 / 2 ^ 51 := (rho_pow_sub_one_le (by norm_num)).trans (by norm_num)
  calc (rho ^ 3 - 1) * (2 * r) ≤ 1 / 2 ^ 51 * (2 * r) := mul_le_mul_of_nonneg_right h6 (by linarith)
    _ = 1 / 2 ^ 50 * r := by ring

/-- The coordinates of the centre are the mean values of the bounds, up to an error of 2⁻⁵⁰ times the largest absolute
value of a coordinate. -/
theorem C89_center_error (b : Box) (r : ℝ) (hr : BoxWithin b r) :
    |(Fp.boxCenter b).x - (b.xMin + b.xMax) / 2| ≤ 1 / 2 ^ 50 * r ∧
    |(Fp.boxCenter b).y - (b.yMin + b.yMax) / 2| ≤ 1 / 2 ^ 50 * r ∧
    |(Fp.boxCenter b).z - (b.zMin + b.zMax) / 2| ≤ 1 / 2 ^ 50 * r := by
  obtain ⟨r1, r2, r3, r4, r5, r6⟩ := hr
  exact ⟨center_err r1 r2, center_err r3 r4, center_err r5 r6⟩

/-- The volume is the product of the three extents up to a relative error of 2⁻⁵⁰. -/
theorem C89_volume (b : Box) (hb : OrderedBox b) :
    |Fp.boxVolume b - (b.xMax - b.xMin) * (b.yMax - b.yMin) * (b.zMax - b.zMin)| ≤
      1 / 2 ^ 50 * ((b.xMax - b.xMin) * (b.yMax - b.yMin) * (b.zMax - b.zMin)) ∧ 0 ≤ Fp.boxVolume b := by
  obtain ⟨hx, hy, hz⟩ := hb
  have sx : Close 1 (Fp.sub b.xMax b.xMin) (b.xMax - b.xMin) := close_rnd (by linarith)
  have sy : Close 1 (Fp.sub b.yMax b.yMin) (b.yMax - b.yMin) := close_rnd (by linarith)
  have sz : Close 1 (Fp.sub b.zMax b.zMin) (b.zMax - b.zMin) := close_rnd (by linarith)
  have h : Close 5 (Fp.boxVolume b) ((b.xMax - b.xMin) * (b.yMax - b.yMin) * (b.zMax - b.zMin)) :=
    (((sx.mul sy).rnd).mul sz).rnd
  refine ⟨h.abs_sub_le.trans (mul_le_mul_of_nonneg_right ?_ h.2.1), h.1⟩
  exact (rho_pow_sub_one_le (by norm_num)).trans (by norm_num)

/-! ## C90 Pre-check of bounding boxes -/

theorem overlap_fp {i1 i2 : Interval} {eps t : ℝ} (hlo : 1 / 2 ^ 52 * |i2.lo| < eps) (hhi : 1 / 2 ^ 52 * |i2.hi| < eps)
    (h1 : i1.lo ≤ t) (h2 : t ≤ i1.hi) (h3 : i2.lo ≤ t) (h4 : t ≤ i2.hi) : Fp.intervalsOverlap i1 i2 eps := by
  have a := sub_lt_self_fp hlo
  have b := lt_add_self_fp hhi
  unfold Fp.intervalsOverlap
  split_ifs <;> first | trivial | linarith

theorem doIntersect_fp {b1 b2 : Box} {eps : ℝ} : Fp.doIntersect b1 b2 eps ↔
    Fp.intervalsOverlap ⟨b1.xMin, b1.xMax⟩ ⟨b2.xMin, b2.xMax⟩ eps ∧
    Fp.intervalsOverlap ⟨b1.yMin, b1.yMax⟩ ⟨b2.yMin, b2.yMax⟩ eps ∧
    Fp.intervalsOverlap ⟨b1.zMin, b1.zMax⟩ ⟨b2.zMin, b2.zMax⟩ eps := by
  unfold Fp.doIntersect
  split_ifs with h1 h2 <;> tauto

theorem meanEps_bounds {b1 b2 : Box} (h1 : OrderedBox b1) (h2 : OrderedBox b2) :
    0.98 / 10 ^ 7 * ((diagonal b1 + diagonal b2) / 2) ≤ Fp.mul 0.5 (Fp.add (Fp.boxEps b1) (Fp.boxEps b2)) ∧
    Fp.mul 0.5 (Fp.add (Fp.boxEps b1) (Fp.boxEps b2)) ≤ 1.02 / 10 ^ 7 * ((diagonal b1 + diagonal b2) / 2) := by
  have h : Close 8 (Fp.mul 0.5 (Fp.add (Fp.boxEps b1) (Fp.boxEps b2)))
      (0.5 * (1 / 10 ^ 7 * diagonal b1 + 1 / 10 ^ 7 * diagonal b2)) := by
    have h3 : Close 7 (Fp.add (Fp.boxEps b1) (Fp.boxEps b2)) (1 / 10 ^ 7 * diagonal b1 + 1 / 10 ^ 7 * diagonal b2) :=
      ((close_boxEps h1).add (close_boxEps h2)).rnd
    have h4 := ((Close.refl (show (0 : ℝ) ≤ 0.5 by norm_num)).mul h3).rnd
    exact h4
  have h0 := h.abs_sub_le
  have h5 : rho ^ 8 - 1 ≤ 0.01 := (rho_pow_sub_one_le (by norm_num)).trans (by norm_num)
  have d1 := diagonal_nonneg b1
  have d2 := diagonal_nonneg b2
  have h6 := abs_le.1 (h0.trans (mul_le_mul_of_nonneg_right h5 (by positivity)))
  constructor
  · have := h6.1
    norm_num at this ⊢
    linarith
  · have := h6.2
    norm_num at this ⊢
    linarith

/-- The full property: boxes with a common point are found to intersect. -/
def C90_full : Prop := ∀ (b1 b2 : Box) (p : V3), DoubleBox b1 → DoubleBox b2 →
  InBox (Box.lo b1) (Box.hi b1) p → InBox (Box.lo b2) (Box.hi b2) p → Fp.doIntersectDefault b1 b2

/-- **Touching boxes.**  Boxes with a common point are found to intersect if the coordinates of the second box are at
most 1e8 times as large as the mean of the diagonals. -/
theorem C90_common_point_partial (b1 b2 : Box) (p : V3) (hd : 0 < diagonal b1 + diagonal b2)
    (hr : BoxWithin b2 (10 ^ 8 * ((diagonal b1 + diagonal b2) / 2)))
    (h1 : InBox (Box.lo b1) (Box.hi b1) p) (h2 : InBox (Box.lo b2) (Box.hi b2) p) : Fp.doIntersectDefault b1 b2 := by
  obtain ⟨p1, p2, p3, p4, p5, p6⟩ := h1
  obtain ⟨q1, q2, q3, q4, q5, q6⟩ := h2
  have o1 : OrderedBox b1 := ⟨p1.trans p2, p3.trans p4, p5.trans p6⟩
  have o2 : OrderedBox b2 := ⟨q1.trans q2, q3.trans q4, q5.trans q6⟩
  have he := (meanEps_bounds o1 o2).1
  have key : ∀ a : ℝ, |a| ≤ 10 ^ 8 * ((diagonal b1 + diagonal b2) / 2) →
      1 / 2 ^ 52 * |a| < Fp.mul 0.5 (Fp.add (Fp.boxEps b1) (Fp.boxEps b2)) := by
    intro a ha
    have h1 : 1 / 2 ^ 52 * |a| ≤ 1 / 2 ^ 52 * (10 ^ 8 * ((diagonal b1 + diagonal b2) / 2)) :=
      mul_le_mul_of_nonneg_left ha (by positivity)
    have h2 : 1 / 2 ^ 52 * (10 ^ 8 * ((diagonal b1 + diagonal b2) / 2))
        < 0.98 / 10 ^ 7 * ((diagonal b1 + diagonal b2) / 2) := by
      rw [← mul_assoc]
      exact mul_lt_mul_of_pos_right (by norm_num) (by linarith)
    linarith
  obtain ⟨r1, r2, r3, r4, r5, r6⟩ := hr
  unfold Fp.doIntersectDefault
  rw [doIntersect_fp]
  exact ⟨overlap_fp (key _ r1) (key _ r2) p1 p2 q1 q2, overlap_fp (key _ r3) (key _ r4) p3 p4 q3 q4,
    overlap_fp (key _ r5) (key _ r6) p5 p6 q5 q6⟩

/-- Two unit boxes that share the edge at x = 1, z = 1. -/
example : Fp.doIntersectDefault ⟨0, 1, 0, 1, 0, 1⟩ ⟨1, 2, 0, 1, 1, 2⟩ := by
  have d1 : 1 ≤ diagonal ⟨0, 1, 0, 1, 0, 1⟩ := diagonal_ge (by norm_num)
  have d2 : 1 ≤ diagonal ⟨1, 2, 0, 1, 1, 2⟩ := diagonal_ge (by norm_num)
  refine C90_common_point_partial _ _ ⟨1, 0, 1⟩ (by linarith) ?_ ?_ ?_
  · refine ⟨?_, ?_, ?_, ?_, ?_, ?_⟩ <;> rw [abs_of_nonneg (by norm_num)] <;> norm_num <;> linarith
  · refine ⟨?_, ?_, ?_, ?_, ?_, ?_⟩ <;> norm_num [Box.lo, Box.hi]
  · refine ⟨?_, ?_, ?_, ?_, ?_, ?_⟩ <;> norm_num [Box.lo, Box.hi]

/-- **The code violates the property**: unit boxes that touch at the coordinate 2⁴⁰ are not found to intersect. -/
theorem C90_disproof : ¬ C90_full := by
  intro h
  have h1 := h farNeighbour farBox ⟨2 ^ 40, 0, 0⟩ double_farNeighbour double_farBox
    (by refine ⟨?_, ?_, ?_, ?_, ?_, ?_⟩ <;> norm_num [Box.lo, Box.hi, farNeighbour])
    (by refine ⟨?_, ?_, ?_, ?_, ?_, ?_⟩ <;> norm_num [Box.lo, Box.hi, farBox])
  have hm := meanEps_bounds ordered_farNeighbour ordered_farBox
  have a1 : 1 ≤ diagonal farBox := diagonal_ge (by norm_num [farBox])
  have a2 : diagonal farBox ≤ 2 :=
    diagonal_le ordered_farBox (by norm_num [farBox]) (by norm_num [farBox]) (by norm_num [farBox])
  have a3 : 1 ≤ diagonal farNeighbour := diagonal_ge (by norm_num [farNeighbour])
  have a4 : diagonal farNeighbour ≤ 2 := diagonal_le ordered_farNeighbour (by norm_num [farNeighbour])
    (by norm_num [farNeighbour]) (by norm_num [farNeighbour])
  unfold Fp.doIntersectDefault at h1
  set eps := Fp.mul 0.5 (Fp.add (Fp.boxEps farNeighbour) (Fp.boxEps farBox))
  have e1 : 0 < eps := by
    refine lt_of_lt_of_le ?_ hm.1
    have : 0 < (diagonal farNeighbour + diagonal farBox) / 2 := by linarith
    positivity
  have e2 : eps < 1 / 10 ^ 5 := by
    refine lt_of_le_of_lt hm.2 ?_
    norm_num
    linarith
  have h2 := (doIntersect_fp.1 h1).1
  have h3 : Fp.intervalsOverlap ⟨2 ^ 40 - 1, 2 ^ 40⟩ ⟨2 ^ 40, 2 ^ 40 + 1⟩ eps := h2
  unfold Fp.intervalsOverlap at h3
  simp only at h3
  rw [sub_large e1 e2] at h3
  have h4 : ¬ ((2 : ℝ) ^ 40 > Fp.add (2 ^ 40 + 1) eps) := by
    have h5 : (2 : ℝ) ^ 40 + 1 ≤ Fp.add (2 ^ 40 + 1) eps := by
      unfold Fp.add
      have hd : IsDouble (2 ^ 40 + 1) := double_farBox.2.1
      exact le_rnd_of_le hd (by linarith)
    intro h6
    linarith
  rw [if_neg h4, if_pos (by norm_num)] at h3
  exact lt_irrefl _ h3

theorem gap_fp {i1 i2 : Interval} {eps : ℝ} (he : 0 ≤ eps) (o1 : i1.lo ≤ i1.hi) (o2 : i2.lo ≤ i2.hi)
    (h : Fp.intervalsOverlap i1 i2 eps) :
    i1.lo ≤ i2.hi + eps + 1 / 2 ^ 53 * (|i2.hi| + eps) ∧ i2.lo - eps - 1 / 2 ^ 53 * (|i2.lo| + eps) ≤ i1.hi := by
  have a := sub_ge_fp (a := i2.lo) he
  have b := add_le_fp (a := i2.hi) he
  have n1 : 0 ≤ 1 / 2 ^ 53 * (|i2.hi| + eps) := by positivity
  have n2 : 0 ≤ 1 / 2 ^ 53 * (|i2.lo| + eps) := by positivity
  have c : Fp.sub i2.lo eps ≤ Fp.add i2.hi eps := rnd_mono (by linarith)
  unfold Fp.intervalsOverlap at h
  split_ifs at h <;> constructor <;> linarith

/-- **Distant boxes.**  Under the same condition, boxes that are found to intersect do not have a gap of more than 2e-7
times the mean of the diagonals between them in any coordinate. -/
theorem C90_gap (b1 b2 : Box) (o1 : OrderedBox b1) (o2 : OrderedBox b2)
    (hr : BoxWithin b2 (10 ^ 8 * ((diagonal b1 + diagonal b2) / 2))) (h : Fp.doIntersectDefault b1 b2) :
    let δ := 2 / 10 ^ 7 * ((diagonal b1 + diagonal b2) / 2)
    (b1.xMin ≤ b2.xMax + δ ∧ b2.xMin ≤ b1.xMax + δ) ∧ (b1.yMin ≤ b2.yMax + δ ∧ b2.yMin ≤ b1.yMax + δ) ∧
    (b1.zMin ≤ b2.zMax + δ ∧ b2.zMin ≤ b1.zMax + δ) := by
  intro δ
  have hm := meanEps_bounds o1 o2
  have d1 := diagonal_nonneg b1
  have d2 := diagonal_nonneg b2
  unfold Fp.doIntersectDefault at h
  set eps := Fp.mul 0.5 (Fp.add (Fp.boxEps b1) (Fp.boxEps b2))
  have he : 0 ≤ eps := le_trans (by positivity) hm.1
  have key : ∀ a : ℝ, |a| ≤ 10 ^ 8 * ((diagonal b1 + diagonal b2) / 2) → eps + 1 / 2 ^ 53 * (|a| + eps) ≤ δ := by
    intro a ha
    set D := (diagonal b1 + diagonal b2) / 2
    have hD : 0 ≤ D := by positivity
    have h1 : 1 / 2 ^ 53 * (|a| + eps) ≤ 1 / 2 ^ 53 * (10 ^ 8 * D + 1.02 / 10 ^ 7 * D) :=
      mul_le_mul_of_nonneg_left (by linarith [hm.2]) (by positivity)
    have h2 : 1.02 / 10 ^ 7 * D + 1 / 2 ^ 53 * (10 ^ 8 * D + 1.02 / 10 ^ 7 * D)
        = (1.02 / 10 ^ 7 + 1 / 2 ^ 53 * (10 ^ 8 + 1.02 / 10 ^ 7)) * D := by ring
    have h3 : (1.02 / 10 ^ 7 + 1 / 2 ^ 53 * (10 ^ 8 + 1.02 / 10 ^ 7)) * D ≤ 2 / 10 ^ 7 * D :=
      mul_le_mul_of_nonneg_right (by norm_num) hD
    have h4 : eps + 1 / 2 ^ 53 * (|a| + eps) ≤ 2 / 10 ^ 7 * D := by linarith [hm.2]
    exact h4
  obtain ⟨hx, hy, hz⟩ := doIntersect_fp.1 h
  obtain ⟨r1, r2, r3, r4, r5, r6⟩ := hr
  have gx := gap_fp he o1.1 o2.1 hx
  have gy := gap_fp he o1.2.1 o2.2.1 hy
  have gz := gap_fp he o1.2.2 o2.2.2 hz
  simp only at gx gy gz
  exact ⟨⟨by linarith [key _ r2], by linarith [key _ r1]⟩, ⟨by linarith [key _ r4], by linarith [key _ r3]⟩,
    ⟨by linarith [key _ r6], by linarith [key _ r5]⟩⟩

/-- **The decision.**  Boxes of positive extent are found to intersect with a given tolerance exactly if, in every
coordinate, each one begins before the other one, enlarged by the tolerance and rounded, ends; boxes that touch the
enlarged one do not intersect it. -/
theorem C90_decision (b1 b2 : Box) (eps : ℝ) (he : 0 ≤ eps)
    (p1 : b1.xMin < b1.xMax ∧ b1.yMin < b1.yMax ∧ b1.zMin < b1.zMax) (o2 : OrderedBox b2) :
    Fp.doIntersect b1 b2 eps ↔
    (b1.xMin < Fp.rnd (b2.xMax + eps) ∧ Fp.rnd (b2.xMin - eps) < b1.xMax) ∧
    (b1.yMin < Fp.rnd (b2.yMax + eps) ∧ Fp.rnd (b2.yMin - eps) < b1.yMax) ∧
    (b1.zMin < Fp.rnd (b2.zMax + eps) ∧ Fp.rnd (b2.zMin - eps) < b1.zMax) := by
  have key : ∀ i1 i2 : Interval, i1.lo < i1.hi → i2.lo ≤ i2.hi →
      (Fp.intervalsOverlap i1 i2 eps ↔ i1.lo < Fp.rnd (i2.hi + eps) ∧ Fp.rnd (i2.lo - eps) < i1.hi) := by
    intro i1 i2 h1 h2
    have c : Fp.rnd (i2.lo - eps) ≤ Fp.rnd (i2.hi + eps) := rnd_mono (by linarith)
    unfold Fp.intervalsOverlap Fp.add Fp.sub
    split_ifs with a b
    · exact ⟨fun h => ⟨h, by linarith⟩, fun h => h.1⟩
    · exact ⟨fun h => ⟨by linarith, h⟩, fun h => h.2⟩
    · simp only [true_iff]; constructor <;> linarith
  rw [doIntersect_fp, key _ _ p1.1 o2.1, key _ _ p1.2.1 o2.2.1, key _ _ p1.2.2 o2.2.2]

/-- Unit boxes with a gap of the width 1 are not found to intersect. -/
example : ¬ Fp.doIntersectDefault ⟨0, 1, 0, 1, 0, 1⟩ ⟨2, 3, 0, 1, 0, 1⟩ := by
  have o1 : OrderedBox ⟨0, 1, 0, 1, 0, 1⟩ := by refine ⟨?_, ?_, ?_⟩ <;> norm_num
  have o2 : OrderedBox ⟨2, 3, 0, 1, 0, 1⟩ := by refine ⟨?_, ?_, ?_⟩ <;> norm_num
  have d1 : 1 ≤ diagonal ⟨0, 1, 0, 1, 0, 1⟩ := diagonal_ge (by norm_num)
  have d2 : 1 ≤ diagonal ⟨2, 3, 0, 1, 0, 1⟩ := diagonal_ge (by norm_num)
  have e1 : diagonal ⟨0, 1, 0, 1, 0, 1⟩ ≤ 2 := diagonal_le o1 (by norm_num) (by norm_num) (by norm_num)
  have e2 : diagonal ⟨2, 3, 0, 1, 0, 1⟩ ≤ 2 := diagonal_le o2 (by norm_num) (by norm_num) (by norm_num)
  intro h
  have := (C90_gap _ _ o1 o2 (by
    refine ⟨?_, ?_, ?_, ?_, ?_, ?_⟩ <;> rw [abs_of_nonneg (by norm_num)] <;> norm_num <;> linarith) h).1.2
  simp only at this
  norm_num at this
  linarith

end Props
