import Verif.Model.Float.SurfaceAngle
import Verif.Props.FloatCylinderSurface
import Verif.Props.FloatVector
import Verif.Props.FloatRotation
import Verif.Props.Angle
import Mathlib.Geometry.Euclidean.Angle.Unoriented.TriangleInequality
import Mathlib.Analysis.InnerProductSpace.PiL2

/-!
# C161 Angles with cylinder surfaces in double precision
-/

namespace Props
open Verif Frackit Spec

/-- A vector as an element of the Euclidean space of Mathlib. -/
noncomputable def toEuclidean (v : V3) : EuclideanSpace ℝ (Fin 3) := !₂[v.x, v.y, v.z]

theorem vecAngle_eq (v w : V3) : vecAngle v w = InnerProductGeometry.angle (toEuclidean v) (toEuclidean w) := by
  unfold vecAngle InnerProductGeometry.angle
  congr 2
  · simp [Spec.inner, toEuclidean, PiLp.inner_apply, Fin.sum_univ_three]
    ring
  · simp [Spec.norm, toEuclidean, EuclideanSpace.norm_eq, Fin.sum_univ_three]

/-- The triangle inequality for angles. -/
theorem vecAngle_triangle (u v w : V3) : |vecAngle u v - vecAngle u w| ≤ vecAngle v w := by
  have h1 := InnerProductGeometry.angle_le_angle_add_angle (toEuclidean u) (toEuclidean v) (toEuclidean w)
  have h2 := InnerProductGeometry.angle_le_angle_add_angle (toEuclidean u) (toEuclidean w) (toEuclidean v)
  rw [InnerProductGeometry.angle_comm (toEuclidean w)] at h2
  rw [vecAngle_eq, vecAngle_eq, vecAngle_eq, abs_le]
  constructor <;> linarith

/-- Angles between planes with nearly the same normals. -/
theorem planeAngle_near {u v w : V3} {α β : ℝ} (h1 : IsPlaneAngle u v α) (h2 : IsPlaneAngle u w β) :
    |α - β| ≤ vecAngle v w := by
  have h := abs_le.1 (vecAngle_triangle u v w)
  unfold IsPlaneAngle at h1 h2
  rw [h1, h2, abs_le]
  grind

/-- The angle between vectors that differ little. -/
theorem vecAngle_small (v w : V3) (r δ : ℝ) (hr : 0 < r) (hv : r ≤ v.len) (hw : r ≤ w.len) (hδ : 0 ≤ δ)
    (h : (v - w).len ≤ 2 * δ * r) : vecAngle v w ≤ Real.pi * δ := by
  have v0 : 0 < v.len := hr.trans_le hv
  have w0 : 0 < w.len := hr.trans_le hw
  have hvw : 0 < v.len * w.len := mul_pos v0 w0
  have hrr : r * r ≤ v.len * w.len := mul_le_mul hv hw hr.le v0.le
  have e1 : (v - w).len ^ 2 = v.len ^ 2 + w.len ^ 2 - 2 * v.dot w := by
    rw [V3.len_sq, V3.len_sq, V3.len_sq]
    simp only [V3.sqLen, V3.dot, V3.sub_x, V3.sub_y, V3.sub_z]
    ring
  have e2 : (v - w).len ^ 2 ≤ (2 * δ * r) ^ 2 := pow_le_pow_left₀ (V3.len_nonneg _) h 2
  have e3 := abs_le.1 (V3.abs_dot_le v w)
  set c := v.dot w / (v.len * w.len) with hc
  have c1 : c ≤ 1 := (div_le_one hvw).2 e3.2
  have c0 : -1 ≤ c := by
    rw [hc, le_div_iff₀ hvw]
    linarith [e3.1]
  have c2 : |c - 1| ≤ 2 * δ ^ 2 := by
    rw [abs_of_nonpos (by linarith)]
    have : 1 - 2 * δ ^ 2 ≤ c := by
      rw [hc, le_div_iff₀ hvw]
      have := mul_le_mul_of_nonneg_left hrr (sq_nonneg δ)
      nlinarith [sq_nonneg (v.len - w.len)]
    linarith
  have := arccos_diff c0 c1 (by norm_num) le_rfl c2 hδ
  rw [Real.arccos_one, sub_zero] at this
  unfold vecAngle
  rw [inner_eq_dot, norm_eq_len, norm_eq_len]
  exact (abs_le.1 this).2

/-- **Angles at points.**  For points near the surface, the computed angle between a planar geometry, whose normal is
computed from the vector `v`, and the surface differs from the exact angle by at most 1.1e-7, or it is NaN and the exact
angle is less than 1.1e-7. -/
theorem C161_angle (b : Elliptical) (h : ℝ) (hp : Proportioned b h) (a : V3) (L : ℝ) (ha : Spec.IsUnit a)
    (hL0 : 0 ≤ L) (hT : Fp.topCenter b h = b.center + L • a) (p : V3) (h0 : -(1 / 10 ^ 3) * L ≤ axial b.center a p)
    (h1 : axial b.center a p ≤ L + 1 / 10 ^ 3 * L)
    (hr : |radial b.center a p - b.majLen| ≤ 1 / 10 ^ 3 * b.majLen) (v m : V3) (hm : Fp.mkDirection v = .val m) (θ : ℝ)
    (hθ : IsPlaneAngle v (radialVec b.center a p) θ) :
    (∃ α, Fp.surfaceAngleAt m b h p = some α ∧ |α - θ| < 1.1 / 10 ^ 7) ∨
      (Fp.surfaceAngleAt m b h p = none ∧ θ < 1.1 / 10 ^ 7) := by
  have ha' : a.len = 1 := unit_len ha
  have R0 := hp.radius_pos
  obtain ⟨hr1, hr2⟩ := abs_le.1 hr
  have hv : (p - b.center).len ≤ 1.1 * (L + b.majLen) := by
    refine (len_le_axial_radial b.center a p ha').trans ?_
    have : |axial b.center a p| ≤ 1.01 * L := by
      rw [abs_le]
      norm_num at h0 h1 ⊢
      constructor <;> linarith
    norm_num at *
    linarith
  obtain ⟨line, hl, err1, err2⟩ := foot_near b h hp a L ha hL0 hT p hv
  have k0 := radial_eq b.center a p
  have kr := radialVec_eq b.center a p
  set N := radialVec b.center a p
  set r := b.majLen
  set P := Fp.lineProjection line p
  rw [← kr] at k0
  have e0 : p - P - N = -(P - (b.center + a.dot (p - b.center) • a)) := by rw [kr]; module
  have k1 : (p - P - N).len ≤ 1 / 10 ^ 9 * r := by rw [e0, V3.len_neg]; exact err2
  have k2 := abs_le.1 ((abs_len_sub_le (p - P) N).trans k1)
  have k3 := between_error P p
  set w := Fp.vectorBetween P p with hw
  have k4 := abs_le.1 ((abs_len_sub_le w (p - P)).trans k3)
  have k5 : (w - N).len ≤ 1.2 / 10 ^ 9 * r := by
    have e : w - N = (w - (p - P)) + (p - P - N) := by module
    have d := V3.len_add_le (w - (p - P)) (p - P - N)
    rw [← e] at d
    rw [← k0] at k2
    norm_num at *
    linarith
  have N1 : 0.99 * r ≤ N.len := by
    rw [← k0]
    norm_num at *
    linarith
  have w1 : 0.99 * r ≤ w.len := by
    have := abs_le.1 ((abs_len_sub_le w N).trans k5)
    rw [← k0] at this
    norm_num at *
    linarith
  have small := vecAngle_small w N (0.99 * r) (0.61 / 10 ^ 9) (by positivity) w1 N1 (by norm_num)
    (k5.trans (by norm_num; linarith))
  have w0 : w ≠ 0 := by
    intro h0
    rw [h0] at w1
    have : (0 : V3).len = 0 := by simp [V3.len, V3.sqLen]
    rw [this] at w1
    linarith
  obtain ⟨n, hn⟩ := fpDirection_of_ne w0
  have hs : Fp.surfaceAngleAt m b h p = Fp.planeAngle m n := by
    have : Fp.surfaceNormal b h p = .val n := by
      unfold Fp.surfaceNormal
      rw [hl]
      exact hn
    unfold Fp.surfaceAngleAt
    rw [this]
  rw [hs]
  have hφ := planeAngle_exists v w
  set φ := Real.arccos |Spec.inner v w / (Spec.norm v * Spec.norm w)|
  have near := abs_le.1 ((planeAngle_near hφ hθ).trans small)
  have pi4 := Real.pi_lt_four
  rcases C86_angle_partial v w m n φ hm hn hφ with ⟨α, hα, hd⟩ | ⟨hα, hd⟩
  · left
    refine ⟨α, hα, ?_⟩
    rw [abs_lt] at hd ⊢
    norm_num at *
    constructor <;> linarith
  · right
    refine ⟨hα, ?_⟩
    norm_num at *
    linarith

/-- The points near a surface for which `C161_angle` holds. -/
def NearSurface (c a : V3) (r L : ℝ) (p : V3) : Prop :=
  -(1 / 10 ^ 3) * L ≤ axial c a p ∧ axial c a p ≤ L + 1 / 10 ^ 3 * L ∧ |radial c a p - r| ≤ 1 / 10 ^ 3 * r

/-- **Minimum angle.**  Geometries that touch in an angle that is larger than the minimum angle by 1.1e-7 are accepted;
if the angle is at least 1.1e-7, but smaller than the minimum angle by 1.1e-7, they are rejected. -/
theorem C161_constraint (b : Elliptical) (h : ℝ) (hp : Proportioned b h) (a : V3) (L : ℝ) (ha : Spec.IsUnit a)
    (hL0 : 0 ≤ L) (hT : Fp.topCenter b h = b.center + L • a) (p : V3) (hn : NearSurface b.center a b.majLen L p)
    (v m : V3) (hm : Fp.mkDirection v = .val m) (θ minAngle : ℝ) (hθ : IsPlaneAngle v (radialVec b.center a p) θ) :
    (minAngle + 1.1 / 10 ^ 7 ≤ θ → ¬ Fp.less (Fp.surfaceAngleAt m b h p) minAngle) ∧
    (1.1 / 10 ^ 7 ≤ θ → θ ≤ minAngle - 1.1 / 10 ^ 7 → Fp.less (Fp.surfaceAngleAt m b h p) minAngle) := by
  rcases C161_angle b h hp a L ha hL0 hT p hn.1 hn.2.1 hn.2.2 v m hm θ hθ with ⟨α, hα, hd⟩ | ⟨hα, hd⟩
  · rw [hα]
    have := abs_lt.1 hd
    simp only [Fp.less, not_lt]
    constructor
    · intro
      linarith
    · intro _ _
      linarith
  · rw [hα]
    simp only [Fp.less]
    exact ⟨fun _ => id, fun h1 => by linarith⟩

theorem minAngleStep_le (r : ℝ) (x : Option ℝ) : Fp.minAngleStep r x ≤ r := by
  unfold Fp.minAngleStep
  cases x with
  | none => exact le_rfl
  | some a =>
    simp only
    split <;> linarith

/-- The loop over the points. -/
theorem angleLoop (f : V3 → Option ℝ) (ps : List V3) (init : ℝ) :
    let r := ps.foldl (fun result p => Fp.minAngleStep result (f p)) init
    r ≤ init ∧ (∀ p ∈ ps, ∀ α, f p = some α → r ≤ α) ∧ (r = init ∨ ∃ p ∈ ps, f p = some r) := by
  induction ps generalizing init with
  | nil => simp
  | cons q qs ih =>
    obtain ⟨i1, i2, i3⟩ := ih (Fp.minAngleStep init (f q))
    simp only [List.foldl_cons]
    set r := qs.foldl (fun result p => Fp.minAngleStep result (f p)) (Fp.minAngleStep init (f q))
    refine ⟨i1.trans (minAngleStep_le _ _), ?_, ?_⟩
    · intro p hp α hα
      rcases List.mem_cons.1 hp with rfl | hp
      · refine i1.trans ?_
        rw [hα]
        unfold Fp.minAngleStep
        simp only
        split <;> linarith
      · exact i2 p hp α hα
    · rcases i3 with i3 | ⟨p, hp, i3⟩
      · rw [i3]
        cases hq : f q with
        | none => left; rfl
        | some α =>
          unfold Fp.minAngleStep
          simp only
          split
          · right
            exact ⟨q, List.mem_cons_self, hq⟩
          · left; rfl
      · exact .inr ⟨p, List.mem_cons_of_mem _ hp, i3⟩

/-- **Angles along curves.**  The result is at most the angle at each of the points (up to 1.1e-7, and except for points
with an angle below 1.1e-7), and it is the angle at one of the points unless the angles at all of them are below
1.1e-7. -/
theorem C161_curve (b : Elliptical) (h : ℝ) (hp : Proportioned b h) (a : V3) (L : ℝ) (ha : Spec.IsUnit a)
    (hL0 : 0 ≤ L) (hT : Fp.topCenter b h = b.center + L • a) (ps : List V3)
    (hn : ∀ p ∈ ps, NearSurface b.center a b.majLen L p) (v m : V3) (hm : Fp.mkDirection v = .val m) (θ : V3 → ℝ)
    (hθ : ∀ p ∈ ps, IsPlaneAngle v (radialVec b.center a p) (θ p)) :
    (∀ p ∈ ps, 1.1 / 10 ^ 7 ≤ θ p → Fp.surfaceAngleAlong m b h ps ≤ θ p + 1.1 / 10 ^ 7) ∧
    ((∃ p ∈ ps, |Fp.surfaceAngleAlong m b h ps - θ p| < 1.1 / 10 ^ 7) ∨ ∀ p ∈ ps, θ p < 1.1 / 10 ^ 7) := by
  have key := fun p (hps : p ∈ ps) => C161_angle b h hp a L ha hL0 hT p (hn p hps).1 (hn p hps).2.1 (hn p hps).2.2 v m hm
    (θ p) (hθ p hps)
  obtain ⟨-, l2, l3⟩ := angleLoop (Fp.surfaceAngleAt m b h) ps doubleMax
  change ∀ p ∈ ps, ∀ α, _ → Fp.surfaceAngleAlong m b h ps ≤ α at l2
  change Fp.surfaceAngleAlong m b h ps = _ ∨ ∃ p ∈ ps, _ = some (Fp.surfaceAngleAlong m b h ps) at l3
  refine ⟨fun p hps h1 => ?_, ?_⟩
  · rcases key p hps with ⟨α, hα, hd⟩ | ⟨-, hd⟩
    · have := l2 p hps α hα
      have := abs_lt.1 hd
      linarith
    · linarith
  · by_cases hall : ∀ p ∈ ps, θ p < 1.1 / 10 ^ 7
    · exact .inr hall
    · left
      push Not at hall
      obtain ⟨q, hq, hq1⟩ := hall
      rcases l3 with l3 | ⟨p, hps, l3⟩
      · rcases key q hq with ⟨α, hα, hd⟩ | ⟨-, hd⟩
        · exfalso
          have h3 := l2 q hq α hα
          have h4 : θ q ≤ 4 := by
            have := hθ q hq
            unfold IsPlaneAngle at this
            rw [this]
            exact (min_le_left _ _).trans ((Real.arccos_le_pi _).trans Real.pi_lt_four.le)
          have h5 : (6 : ℝ) ≤ doubleMax := by
            unfold doubleMax
            have : (2 : ℝ) ^ 3 ≤ 2 ^ 1023 := pow_le_pow_right₀ (by norm_num) (by norm_num)
            generalize (2 : ℝ) ^ 1023 = x at *
            norm_num at *
            linarith
          have := abs_lt.1 hd
          rw [l3] at h3
          norm_num at *
          linarith
        · linarith
      · refine ⟨p, hps, ?_⟩
        rcases key p hps with ⟨α, hα, hd⟩ | ⟨hα, -⟩
        · rw [hα] at l3
          rwa [← Option.some.inj l3]
        · rw [hα] at l3
          cases l3

theorem near_at (x y : ℝ) (h : (x - 100) * (x - 100) + (y - 200) * (y - 200) = 25) :
    NearSurface nearCylinder.center ⟨0, 0, 1⟩ nearCylinder.majLen 20 ⟨x, y, 60⟩ := by
  have hx : axial nearCylinder.center ⟨0, 0, 1⟩ ⟨x, y, 60⟩ = 10 := by norm_num [axial, nearCylinder]
  have hr : radial nearCylinder.center ⟨0, 0, 1⟩ ⟨x, y, 60⟩ = 5 := by
    unfold radial Spec.dist
    rw [Real.sqrt_eq_iff_mul_self_eq_of_pos (by norm_num), hx]
    norm_num [nearCylinder]
    linarith
  refine ⟨by rw [hx]; norm_num, by rw [hx]; norm_num, ?_⟩
  rw [hr]
  norm_num [nearCylinder]

theorem angle_at (x y : ℝ) (h : (x - 100) * (x - 100) + (y - 200) * (y - 200) = 25) :
    IsPlaneAngle ⟨1, 0, 0⟩ (radialVec nearCylinder.center ⟨0, 0, 1⟩ ⟨x, y, 60⟩) (Real.arccos |(x - 100) / 5|) := by
  have h1 := planeAngle_exists ⟨1, 0, 0⟩ (radialVec nearCylinder.center ⟨0, 0, 1⟩ ⟨x, y, 60⟩)
  have hN : radialVec nearCylinder.center ⟨0, 0, 1⟩ ⟨x, y, 60⟩ = ⟨x - 100, y - 200, 0⟩ := by
    ext <;> norm_num [radialVec, axial, nearCylinder]
  have e1 : Spec.norm ⟨1, 0, 0⟩ = 1 := by norm_num [Spec.norm]
  have e2 : Spec.norm ⟨x - 100, y - 200, 0⟩ = 5 := by
    unfold Spec.norm
    rw [Real.sqrt_eq_iff_mul_self_eq_of_pos (by norm_num)]
    linarith
  rw [hN] at h1 ⊢
  rw [e1, e2] at h1
  have e3 : Spec.inner ⟨1, 0, 0⟩ ⟨x - 100, y - 200, 0⟩ = x - 100 := by norm_num [Spec.inner]
  rw [e3, one_mul] at h1
  exact h1

theorem arccos_large : 1.1 / 10 ^ 7 ≤ Real.arccos 0.6 := by
  by_contra h
  have h1 : Real.arccos 0.6 < 1 / 2 := (not_le.1 h).trans (by norm_num)
  have h2 := Real.cos_lt_cos_of_nonneg_of_le_pi_div_two (Real.arccos_nonneg _) (by linarith [Real.pi_gt_three]) h1
  rw [Real.cos_arccos (by norm_num) (by norm_num)] at h2
  have h3 := Real.one_sub_sq_div_two_le_cos (x := 1 / 2)
  norm_num at h2 h3
  linarith

/-- The angle at a point of a surface. -/
example : ∃ α, Fp.surfaceAngleAt ⟨1, 0, 0⟩ nearCylinder 20 ⟨103, 204, 60⟩ = some α ∧
    |α - Real.arccos 0.6| < 1.1 / 10 ^ 7 := by
  have hn := near_at 103 204 (by norm_num)
  have hθ := angle_at 103 204 (by norm_num)
  have e : |((103 : ℝ) - 100) / 5| = 0.6 := by norm_num [abs_of_pos]
  rw [e] at hθ
  rcases C161_angle nearCylinder 20 nearCylinder_proportioned ⟨0, 0, 1⟩ 20 (by norm_num [Spec.IsUnit]) (by norm_num)
    nearCylinder_top ⟨103, 204, 60⟩ hn.1 hn.2.1 hn.2.2 ⟨1, 0, 0⟩ _ (basis_direction _ (.inr (.inr rfl))) _ hθ with
    h | ⟨-, h⟩
  · exact h
  · exact absurd h (not_lt.2 arccos_large)

/-- The angle along a curve through two points. -/
example : Fp.surfaceAngleAlong ⟨1, 0, 0⟩ nearCylinder 20 [⟨103, 204, 60⟩, ⟨96, 203, 60⟩] ≤
    Real.arccos 0.6 + 1.1 / 10 ^ 7 := by
  have h := (C161_curve nearCylinder 20 nearCylinder_proportioned ⟨0, 0, 1⟩ 20 (by norm_num [Spec.IsUnit]) (by norm_num)
    nearCylinder_top [⟨103, 204, 60⟩, ⟨96, 203, 60⟩] (by
      intro p hp
      simp only [List.mem_cons, List.not_mem_nil, or_false] at hp
      rcases hp with rfl | rfl
      · exact near_at _ _ (by norm_num)
      · exact near_at _ _ (by norm_num)) ⟨1, 0, 0⟩ _ (basis_direction _ (.inr (.inr rfl)))
    (fun p => Real.arccos |(p.x - 100) / 5|) (by
      intro p hp
      simp only [List.mem_cons, List.not_mem_nil, or_false] at hp
      rcases hp with rfl | rfl
      · exact angle_at _ _ (by norm_num)
      · exact angle_at _ _ (by norm_num))).1 ⟨103, 204, 60⟩ List.mem_cons_self
  have e : |((103 : ℝ) - 100) / 5| = 0.6 := by norm_num [abs_of_pos]
  simp only [e] at h
  exact h arccos_large

end Props
